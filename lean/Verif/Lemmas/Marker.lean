import Verif.Lemmas.Marks
/-! Partitioning with a calendar marker. -/
namespace TB

/-- The spans carry the given number of skipped units on the left of the first one, and none on the left of the others. -/
def SkipsLeft (x : Int) : List Span → Prop
  | [] => True
  | s :: ss => s.skipLeft = x ∧ ∀ t ∈ ss, t.skipLeft = 0

theorem skipsLeft_set {ss : List Span} (h : ∀ s ∈ ss, s.skipLeft = 0) (x : Int) : SkipsLeft x (setFirstSkip x ss) := by
  cases ss with
  | nil => trivial
  | cons s ss => exact ⟨rfl, fun t ht => h t (List.mem_cons_of_mem _ ht)⟩

theorem setLastSkip_left (y : Int) (ss : List Span) : (setLastSkip y ss).map Span.skipLeft = ss.map Span.skipLeft := by
  induction ss with
  | nil => rfl
  | cons s ss ih =>
    cases ss with
    | nil => rfl
    | cons t r => simp only [setLastSkip, List.map_cons] at ih ⊢; rw [ih]

theorem skipsLeft_congr {x : Int} {ss ts : List Span} (h : ss.map Span.skipLeft = ts.map Span.skipLeft) :
    SkipsLeft x ss ↔ SkipsLeft x ts := by
  cases ss with
  | nil => cases ts with
    | nil => rfl
    | cons t ts => simp at h
  | cons s ss => cases ts with
    | nil => simp at h
    | cons t ts =>
      simp only [List.map_cons, List.cons.injEq] at h
      simp only [SkipsLeft, h.1]
      have : (∀ t ∈ ss, t.skipLeft = 0) ↔ (∀ t ∈ ts, t.skipLeft = 0) := by
        have e : ∀ l : List Span, (∀ t ∈ l, t.skipLeft = 0) ↔ ∀ y ∈ l.map Span.skipLeft, y = 0 := by
          intro l; simp [List.mem_map]
        rw [e, e, h.2]
      rw [this]

theorem exists_first_congr {ss ts : List Span} (h : ss.map (fun s => (s.first, s.last)) = ts.map (fun s => (s.first, s.last))) (i : Int) :
    (∃ x ∈ ss, x.first = i) ↔ (∃ x ∈ ts, x.first = i) := by
  have e : ∀ l : List Span, (∃ x ∈ l, x.first = i) ↔ i ∈ (l.map (fun s => (s.first, s.last))).map Prod.fst := by
    intro l; simp [List.mem_map]
  rw [e, e, h]

/-- The general form of a successful partitioning. -/
theorem Frame.partitionWithMarker_some {f : Frame} {s : Span} {m : Marker} {st : Stencil}
    (hc : checkGroupbyFreq f.freq m.each = true) (h0 : 0 ≤ s.first) (h1 : s.first ≤ s.last) (h2 : s.last < f.n)
    (hst : f.stencilFor m (f.unitStart s.first) (f.unitEnd s.last) = .ok (some st)) :
    ∃ ss, f.partitionWithMarker s m = .ok ss ∧ Tiles s.first s.last ss ∧ SkipsLeft (f.skipBefore s st (f.unitStart s.first)) ss ∧
      ∀ i, (∃ x ∈ ss, x.first = i) ↔
        (i = s.first ∨ (s.first < i ∧ i ≤ s.last ∧ ∃ t ∈ st.points, f.unitStart i ≤ t ∧ t < f.noticedEnd i)) := by
  obtain ⟨spans, hsp⟩ := Frame.createSubspans_exists st.points h0 h1 h2
  have hk := Frame.checkSpan_ok_iff.2 ⟨h0, h1, h2⟩
  have e : f.partitionWithMarker s m = .ok (setLastSkip (f.skipAfter s st (f.unitEnd s.last))
      (setFirstSkip (f.skipBefore s st (f.unitStart s.first)) spans)) := by
    unfold Frame.partitionWithMarker
    simp only [Bind.bind, Except.bind, pure, Except.pure, throw, throwThe, MonadExceptOf.throw, hc, hk, hst, hsp,
      Bool.not_true, Bool.false_eq_true, if_false]
  have hb : (setLastSkip (f.skipAfter s st (f.unitEnd s.last)) (setFirstSkip (f.skipBefore s st (f.unitStart s.first)) spans)).map
      (fun s => (s.first, s.last)) = spans.map (fun s => (s.first, s.last)) := by
    rw [setLastSkip_bounds, setFirstSkip_bounds]
  refine ⟨_, e, ?_, ?_, ?_⟩
  · rw [tiles_congr hb]; exact (Frame.createSubspans_tiles hsp).2.2
  · rw [skipsLeft_congr (setLastSkip_left _ _)]
    apply skipsLeft_set
    obtain ⟨_, _, _, rfl⟩ := Frame.createSubspans_ok_iff.1 hsp
    exact fun s hs => (spansBetween_skip _ _ _ s hs).1
  · intro i
    rw [exists_first_congr hb, Frame.createSubspans_first hsp]

/-- No marks at all. -/
theorem Frame.partitionWithMarker_none {f : Frame} {s : Span} {m : Marker}
    (hc : checkGroupbyFreq f.freq m.each = true) (h0 : 0 ≤ s.first) (h1 : s.first ≤ s.last) (h2 : s.last < f.n)
    (hst : f.stencilFor m (f.unitStart s.first) (f.unitEnd s.last) = .ok none) :
    f.partitionWithMarker s m = .ok [{ first := s.first, last := s.last, skipLeft := -1, skipRight := -1 }] := by
  have hk := Frame.checkSpan_ok_iff.2 ⟨h0, h1, h2⟩
  unfold Frame.partitionWithMarker
  simp only [Bind.bind, Except.bind, pure, Except.pure, throw, throwThe, MonadExceptOf.throw, hc, hk, hst,
    Bool.not_true, Bool.false_eq_true, if_false]

theorem Frame.partitionWithMarker_error {f : Frame} {s : Span} {m : Marker} {e : Err}
    (hc : checkGroupbyFreq f.freq m.each = true) (h0 : 0 ≤ s.first) (h1 : s.first ≤ s.last) (h2 : s.last < f.n)
    (hst : f.stencilFor m (f.unitStart s.first) (f.unitEnd s.last) = .error e) :
    f.partitionWithMarker s m = .error e := by
  have hk := Frame.checkSpan_ok_iff.2 ⟨h0, h1, h2⟩
  unfold Frame.partitionWithMarker
  simp only [Bind.bind, Except.bind, throw, throwThe, MonadExceptOf.throw, hc, hk, hst,
    Bool.not_true, Bool.false_eq_true, if_false]

theorem Frame.unitStart_le_unitEnd' {f : Frame} {i j : Int} (h : i ≤ j) : f.unitStart i ≤ f.unitEnd j := by
  have h1 := f.unitStart_le_unitEnd j
  have h2 := Frame.unitStart_le_iff (f := f).2 h
  omega

/-- The stencil of a calendar marker. -/
theorem Frame.stencil_calendar {f : Frame} {each : Freq} {a b : Time} (hab : a ≤ b) :
    ∃ st, f.stencilFor ⟨each, []⟩ a b = .ok (some st) ∧ st.leftUndefined = false ∧
      st.leftBound = each.base.startOf (each.base.ordOf a) ∧
      ∀ t, t ∈ st.points ↔ ∃ j : Int, 0 ≤ j ∧ each.base.ordOf a + each.mult * j ≤ each.base.ordOf b ∧
        t = each.base.startOf (each.base.ordOf a + each.mult * j) := by
  have ho := each.base.ordOf_mono hab
  have hm := each.mult_pos
  obtain ⟨F, hF⟩ : ∃ F, Frame.new each a b = .ok F := ⟨_, Frame.new_ok_iff.2 ⟨ho, rfl⟩⟩
  obtain ⟨_, hF'⟩ := Frame.new_ok_iff.1 hF
  unfold Frame.stencilFor
  simp only [List.isEmpty_nil, if_true, hF, Bind.bind, Except.bind, pure, Except.pure]
  refine ⟨_, rfl, rfl, ?_, ?_⟩
  · simp only [Frame.startTime, Frame.unitStart, Frame.ord, hF', Int.mul_zero, Int.add_zero]
  · intro t
    simp only [Frame.startTimes, List.mem_map, List.mem_range, Frame.unitStart, Frame.ord, hF']
    have hq : ∀ j : Int, j ≤ (each.base.ordOf b - each.base.ordOf a) / (each.mult : Int) ↔
        each.base.ordOf a + each.mult * j ≤ each.base.ordOf b := by
      intro j
      rw [Int.le_ediv_iff_mul_le (by omega), Int.mul_comm]; omega
    have hq0 : 0 ≤ (each.base.ordOf b - each.base.ordOf a) / (each.mult : Int) := Int.ediv_nonneg (by omega) (by omega)
    constructor
    · rintro ⟨k, hk, rfl⟩
      exact ⟨k, by omega, (hq k).1 (by omega), rfl⟩
    · rintro ⟨j, hj, hj2, rfl⟩
      refine ⟨j.toNat, ?_, by rw [Int.toNat_of_nonneg hj]⟩
      have := (hq j).2 hj2
      omega

/-- Counting the base units of the left dangle. -/
theorem countDifference_left {f : Frame} (hm : f.freq.mult = 1) {first : Int} (h0 : 0 ≤ first) (h1 : first < f.n) {t : Time}
    (ht : t ≤ f.unitStart first) :
    countDifference (periodRange f.freq t (f.unitStart first)) (f.ords.drop first.toNat) = f.ord first - f.freq.base.ordOf t := by
  have e1 : f.freq.base.ordOf (f.unitStart first) = f.ord first := by unfold Frame.unitStart; rw [Base.ordOf_startOf]
  have h2 : f.freq.base.ordOf t ≤ f.ord first := by rw [← e1]; exact Base.ordOf_mono _ ht
  have hpr : periodRange f.freq t (f.unitStart first) = intRange (f.freq.base.ordOf t) (f.ord first + 1) := by
    unfold periodRange intRange
    simp only [e1, hm]
    rw [if_neg (by omega)]
    congr 1
    · funext i; omega
    · congr 1
      omega
  have hmem : ∀ o, o ∈ f.ords.drop first.toNat ↔ (f.ord first ≤ o ∧ o < f.ord f.n) := by
    intro o
    rw [List.mem_drop_iff_getElem]
    constructor
    · rintro ⟨j, hj, rfl⟩
      rw [f.getElem_ords]
      rw [f.length_ords] at hj
      exact ⟨Frame.ord_le (by omega), Frame.ord_lt (by omega)⟩
    · rintro ⟨h3, h4⟩
      have hord : ∀ i, f.ord i = f.o0 + i := by intro i; unfold Frame.ord; rw [hm]; omega
      rw [hord] at h3 h4
      refine ⟨(o - f.o0 - first).toNat, by rw [f.length_ords]; omega, ?_⟩
      rw [f.getElem_ords, hord]; omega
  have hfil : (intRange (f.freq.base.ordOf t) (f.ord first + 1)).filter (fun o => !(f.ords.drop first.toNat).contains o) =
      intRange (f.freq.base.ordOf t) (f.ord first) := by
    apply eq_of_pairwise_lt ((pairwise_intRange _ _).filter _) (pairwise_intRange _ _)
    intro x
    simp only [List.mem_filter, mem_intRange, Bool.not_eq_true', List.contains_eq_mem, decide_eq_false_iff_not, hmem]
    have : f.ord first < f.ord f.n := Frame.ord_lt h1
    omega
  unfold countDifference
  rw [hpr, hfil, length_intRange]
  omega

/-- **Partitioning with a calendar marker.** -/
theorem Frame.partition_calendar {f : Frame} {s : Span} {each : Freq}
    (hc : checkGroupbyFreq f.freq each = true) (h0 : 0 ≤ s.first) (h1 : s.first ≤ s.last) (h2 : s.last < f.n) :
    ∃ ss, f.partitionWithMarker s ⟨each, []⟩ = .ok ss ∧ Tiles s.first s.last ss ∧
      SkipsLeft (f.freq.base.ordOf (f.unitStart s.first) -
        f.freq.base.ordOf (each.base.startOf (each.base.ordOf (f.unitStart s.first)))) ss ∧
      ∀ i, s.first < i → i ≤ s.last → ((∃ x ∈ ss, x.first = i) ↔
        ∃ o, (each.mult : Int) ∣ o - each.base.ordOf (f.unitStart s.first) ∧
          f.unitStart i ≤ each.base.startOf o ∧ each.base.startOf o ≤ f.unitEnd i) := by
  have hab := Frame.unitStart_le_unitEnd' (f := f) h1
  obtain ⟨st, hst, hlu, hlb, hpts⟩ := Frame.stencil_calendar (f := f) (each := each) hab
  obtain ⟨ss, g1, g2, g3, g4⟩ := Frame.partitionWithMarker_some (m := ⟨each, []⟩) hc h0 h1 h2 hst
  have hm := each.mult_pos
  have eord : ∀ i, f.freq.base.ordOf (f.unitStart i) = f.ord i := by intro i; unfold Frame.unitStart; rw [Base.ordOf_startOf]
  refine ⟨ss, g1, g2, ?_, ?_⟩
  · have : f.skipBefore s st (f.unitStart s.first) = f.freq.base.ordOf (f.unitStart s.first) -
        f.freq.base.ordOf (each.base.startOf (each.base.ordOf (f.unitStart s.first))) := by
      unfold Frame.skipBefore
      rw [hlu, hlb]
      have hle := each.base.startOf_le_self (f.unitStart s.first)
      simp only [Bool.false_eq_true, if_false]
      split
      · rename_i hlt
        rcases checkGroupby_aligned hc with ⟨ha, _⟩ | ⟨ha, _⟩
        · rw [countDifference_left ha h0 (by omega) hle, eord]
        · exfalso
          rw [← ha, eord] at hlt
          unfold Frame.unitStart at hlt
          omega
      · have : each.base.startOf (each.base.ordOf (f.unitStart s.first)) = f.unitStart s.first := by omega
        rw [this]; omega
    rw [← this]; exact g3
  · intro i hi1 hi2
    rw [g4]
    have hi0 : i ≠ s.first := by omega
    constructor
    · rintro (h | ⟨_, _, t, ht, h3, h4⟩)
      · exact absurd h hi0
      · obtain ⟨j, hj, _, rfl⟩ := (hpts t).1 ht
        have := f.noticedEnd_le i
        refine ⟨_, ⟨j, ?_⟩, h3, by omega⟩
        omega
    · rintro ⟨o, ⟨j, hj⟩, h3, h4⟩
      right
      have ho : o = each.base.ordOf (f.unitStart s.first) + each.mult * j := by omega
      -- the start of the period is the start of the unit
      have hal : ∃ i', each.base.startOf o = f.unitStart i' := by
        rcases checkGroupby_aligned hc with ⟨ha, hb⟩ | ⟨ha, c, hb⟩
        · obtain ⟨o', ho'⟩ := hb o
          refine ⟨o' - f.o0, ?_⟩
          rw [ho']
          unfold Frame.unitStart Frame.ord
          rw [ha]
          congr 1
          omega
        · refine ⟨s.first + c * j, ?_⟩
          rw [ho, ← ha, eord, hb]
          unfold Frame.unitStart Frame.ord
          congr 1
          rw [Int.mul_add, Int.natCast_mul, Int.mul_assoc]; omega
      obtain ⟨i', hi'⟩ := hal
      rw [hi'] at h3 h4
      have hii : i = i' := by
        have hh1 := Frame.unitStart_le_iff (f := f) (i := i) (j := i')
        have hh2 : f.unitStart i' < f.unitStart (i + 1) := by rw [Frame.unitEnd_eq] at h4; omega
        rw [Frame.unitStart_lt_iff] at hh2
        omega
      subst hii
      refine ⟨hi1, hi2, each.base.startOf o, (hpts _).2 ⟨j, ?_, ?_, by rw [ho]⟩, by omega, ?_⟩
      · -- the point is after the start of the span
        have h5 : f.unitStart s.first < f.unitStart i := Frame.unitStart_lt hi1
        have h6 := (each.base.lt_startOf_iff o (f.unitStart s.first)).1 (by omega)
        have h7 : 0 < (each.mult : Int) * j := by omega
        rcases Int.lt_or_le j 0 with hn | hn
        · have := Int.mul_neg_of_pos_of_neg (a := (each.mult : Int)) (b := j) (by omega) hn; omega
        · exact hn
      · rw [← ho, ← Base.startOf_le_iff, hi']
        exact Frame.unitStart_le_unitEnd' hi2
      · rw [hi']
        unfold Frame.noticedEnd
        have := nsSec_pos
        have := @Frame.unitStart_lt f i (i + 1) (by omega)
        split <;> omega

end TB
