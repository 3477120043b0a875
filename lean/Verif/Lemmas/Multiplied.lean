import Verif.Lemmas.Regular
import Verif.Lemmas.Continue2
/-! Partitioning with markers of multiplied frequencies. -/
namespace TB

/-- Regular markers are local. -/
theorem Marker.Regular.toLocal {bu : Freq} {m : Marker} (h : m.Regular bu) (hc : checkGroupbyFreq bu m.each = true) : m.Local bu := by
  obtain ⟨hm, hne, heach, hwit⟩ := h
  refine ⟨(checkGroupby_unit hc hm).1, hne, ?_, ?_⟩
  · intro g hg pi hf hn
    obtain ⟨ts, h1, h2⟩ := heach g hg pi hf hn
    refine ⟨ts, h1, ?_⟩
    intro t
    rw [h2, hm]
    constructor
    · rintro ⟨o, o1, o2, o3⟩
      refine ⟨(o - pi.o0).toNat, by omega, ?_⟩
      rw [show pi.o0 + ((1 : Nat) : Int) * ((o - pi.o0).toNat : Nat) = o by omega]
      exact o3
    · rintro ⟨i, i1, i2⟩
      exact ⟨_, by omega, by omega, i2⟩
  · intro g hg o t ht
    rw [hm]
    exact hwit g hg o t ht

/-- The candidates of a local marker over a stencil. -/
theorem collectAts_local {each bu : Freq} {pi : Frame} (hpf : pi.freq = each) (hn : 0 < pi.n) :
    ∀ {ats : List (Frame → Freq → Except Err (List Time))},
    (∀ g ∈ ats, ∀ pi : Frame, pi.freq = each → 0 < pi.n → ∃ ts, g pi bu = .ok ts ∧
      ∀ t, t ∈ ts ↔ ∃ i : Nat, i < pi.n ∧ t ∈ howAt g each bu (pi.o0 + (each.mult : Int) * i)) →
    ∃ cand, collectAts pi bu ats = .ok cand ∧ ∀ t, t ∈ cand ↔ ∃ g ∈ ats, ∃ i : Nat, i < pi.n ∧
      t ∈ howAt g each bu (pi.o0 + (each.mult : Int) * i) := by
  intro ats
  induction ats with
  | nil => intro _; exact ⟨[], rfl, by simp⟩
  | cons g gs ih =>
    intro h
    obtain ⟨ts, h1, h2⟩ := h g (by simp) pi hpf hn
    obtain ⟨cand, h3, h4⟩ := ih (fun g hg => h g (by simp [hg]))
    refine ⟨ts ++ cand, by simp only [collectAts, h1, h3, Bind.bind, Except.bind]; rfl, ?_⟩
    intro t
    rw [List.mem_append, h2, h4]
    simp only [List.mem_cons, exists_eq_or_imp]

/-- The stencil: which periods it has. -/
theorem stencil_grid {each : Freq} {a b : Time} (hab : a ≤ b) :
    ∃ pi, Frame.new each (a - getFreqDelta each) (b + getFreqDelta each) = .ok pi ∧ pi.freq = each ∧
      pi.o0 = each.base.ordOf (a - getFreqDelta each) ∧
      ∀ i : Nat, pi.o0 + (each.mult : Int) * i ≤ each.base.ordOf b → i < pi.n := by
  have hd := getFreqDelta_pos each
  have ho := each.base.ordOf_mono (show a - getFreqDelta each ≤ b + getFreqDelta each by omega)
  have ho2 := each.base.ordOf_mono (show b ≤ b + getFreqDelta each by omega)
  refine ⟨_, Frame.new_ok_iff.2 ⟨ho, rfl⟩, rfl, rfl, ?_⟩
  intro i hi
  simp only at hi ⊢
  have hm := each.mult_pos
  have h1 : (each.mult : Int) * i ≤ each.base.ordOf (b + getFreqDelta each) - each.base.ordOf (a - getFreqDelta each) := by omega
  have h2 := Int.ediv_le_ediv (show (0 : Int) < (each.mult : Int) by omega) h1
  rw [Int.mul_ediv_cancel_left _ (by omega)] at h2
  omega

/-- The dangle `x` of a span starting at `a`: the number of base units since the last mark, if there is one. -/
def Marker.DangleFrom (bu : Freq) (m : Marker) (o0 : Int) (a : Time) (x : Int) : Prop :=
  (x = -1 ∧ ∀ t, m.MarkFrom bu o0 t → a < t) ∨
  (∃ t, m.MarkFrom bu o0 t ∧ t ≤ a ∧ (∀ t', m.MarkFrom bu o0 t' → t' ≤ a → t' ≤ t) ∧ x = bu.base.ordOf a - bu.base.ordOf t)

theorem Marker.DangleFrom.unique {bu : Freq} {m : Marker} {o0 : Int} {a : Time} {x y : Int} (hx : m.DangleFrom bu o0 a x)
    (hy : m.DangleFrom bu o0 a y) : x = y := by
  rcases hx with ⟨h1, h2⟩ | ⟨t, t1, t2, t4, t5⟩ <;> rcases hy with ⟨k1, k2⟩ | ⟨u, u1, u2, u4, u5⟩
  · omega
  · have := h2 u u1; omega
  · have := k2 t t1; omega
  · have h1 := t4 u u1 u2
    have h2 := u4 t t1 t2
    have : t = u := by omega
    subst this
    omega

/-- **Partitioning with a local marker.** -/
theorem Frame.partition_local {f : Frame} {s : Span} {m : Marker} (hr : m.Local f.freq) (hc : checkGroupbyFreq f.freq m.each = true)
    (h0 : 0 ≤ s.first) (h1 : s.first ≤ s.last) (h2 : s.last < f.n) :
    ∃ ss x, f.partitionWithMarker s m = .ok ss ∧ Tiles s.first s.last ss ∧
      (∀ i, s.first < i → i ≤ s.last → ((∃ y ∈ ss, y.first = i) ↔ m.MarkFrom f.freq (m.each.base.ordOf (f.unitStart s.first - getFreqDelta m.each)) (f.unitStart i))) ∧
      SkipsLeft x ss ∧ m.DangleFrom f.freq (m.each.base.ordOf (f.unitStart s.first - getFreqDelta m.each)) (f.unitStart s.first) x := by
  obtain ⟨hfm, hne, heach, hwit⟩ := hr
  have hab := Frame.unitStart_le_unitEnd' (f := f) h1
  have hab' : f.unitStart s.first < f.unitEnd s.last := by
    have := f.unitStart_add_sec s.first
    have := Frame.unitStart_le_iff (f := f) (i := s.first + 1) (j := s.last + 1)
    have : (1 : Int) < nsSec := by decide
    rw [Frame.unitEnd_eq]
    omega
  obtain ⟨pi, hpi, hpf, hp0, hpr⟩ := stencil_grid (each := m.each) hab
  have hpn : 0 < pi.n := Frame.new_valid hpi
  obtain ⟨cand, hcand, hmem⟩ := collectAts_local hpf hpn heach
  have hus : ∀ i, f.unitStart i = f.freq.base.startOf (f.o0 + i) := by
    intro i; unfold Frame.unitStart Frame.ord; rw [hfm]; congr 1; omega
  have hats : m.ats.isEmpty = false := by
    cases h : m.ats with
    | nil => exact absurd h hne
    | cons g gs => rfl
  -- marks up to the end of the span
  generalize ho0 : m.each.base.ordOf (f.unitStart s.first - getFreqDelta m.each) = o0 at *
  have hcm : ∀ t, t ≤ f.unitEnd s.last → (t ∈ cand ↔ m.MarkFrom f.freq o0 t) := by
    intro t hte
    rw [hmem]
    constructor
    · rintro ⟨g, hg, i, k1, k3⟩
      exact ⟨i, g, hg, by rw [← hp0]; exact k3⟩
    · rintro ⟨i, g, hg, k3⟩
      obtain ⟨w1, w2, w3⟩ := hwit g hg _ t k3
      rw [Base.startOf_le_iff] at w1
      have := m.each.base.ordOf_mono hte
      exact ⟨g, hg, i, hpr i (by rw [hp0]; omega), by rw [hp0]; exact k3⟩
  have hcd : ∀ i, s.first < i → i ≤ s.last → (f.unitStart i ∈ cand ↔ m.MarkFrom f.freq o0 (f.unitStart i)) := by
    intro i hi1 hi2
    have hle : f.unitStart i ≤ f.unitEnd s.last := by
      have := Frame.unitStart_le_iff (f := f) (i := i + 1) (j := s.last + 1)
      have := @Frame.unitStart_lt f i (i + 1) (by omega)
      rw [Frame.unitEnd_eq]
      omega
    exact hcm _ hle
  -- points are starts of base units
  have hst : ∀ t ∈ cand, ∃ i, t = f.unitStart i := by
    intro t ht
    obtain ⟨g, hg, o, _, k3⟩ := (hmem t).1 ht
    obtain ⟨w1, w2, w3⟩ := hwit g hg _ t k3
    refine ⟨f.freq.base.ordOf t - f.o0, ?_⟩
    rw [hus]
    unfold snap at w3
    rw [show f.o0 + (f.freq.base.ordOf t - f.o0) = f.freq.base.ordOf t by omega]
    exact w3
  have hsl : ∀ i, s.first < i → i ≤ s.last → ((∃ t ∈ sliceAtPoints (sortList cand) (f.unitStart s.first) (f.unitEnd s.last),
      f.unitStart i ≤ t ∧ t < f.noticedEnd i) ↔ f.unitStart i ∈ cand) := by
    intro i hi1 hi2
    have hnl := f.noticedEnd_le i
    constructor
    · rintro ⟨t, ht, h3, h4⟩
      have ht' := (mem_sortList _ _).1 (sliceAtPoints_sub ht)
      obtain ⟨i', rfl⟩ := hst t ht'
      have : i = i' := Frame.unit_unique (f := f) (t := f.unitStart i') h3 (by omega) (by omega) (f.unitStart_le_unitEnd i')
      rw [this]; exact ht'
    · intro h3
      refine ⟨f.unitStart i, mem_sliceAtPoints (pairwise_sortList _) ((mem_sortList _ _).2 h3) (Frame.unitStart_lt hi1) ?_, by omega, ?_⟩
      · have := Frame.unitStart_le_iff (f := f) (i := i + 1) (j := s.last + 1)
        have := f.unitStart_add_sec i
        have : (1 : Int) < nsSec := by decide
        rw [Frame.unitEnd_eq]
        omega
      · unfold Frame.noticedEnd
        have := nsSec_pos
        have := @Frame.unitStart_lt f i (i + 1) (by omega)
        split <;> omega
  -- no mark at or before the start
  have hD : (∀ t ∈ cand, f.unitStart s.first < t) → m.DangleFrom f.freq o0 (f.unitStart s.first) (-1) := by
    intro hall
    refine .inl ⟨rfl, ?_⟩
    intro t ht
    rcases Int.lt_or_le (f.unitStart s.first) t with h | h
    · exact h
    · exact hall t ((hcm t (by omega)).2 ht)
  by_cases hemp : sliceAtPoints (sortList cand) (f.unitStart s.first) (f.unitEnd s.last) = []
  · have hstn : f.stencilFor m (f.unitStart s.first) (f.unitEnd s.last) = .ok none := by
      unfold Frame.stencilFor
      simp only [hats, Bool.false_eq_true, if_false, hpi, hcand, Bind.bind, Except.bind, hemp]
      rfl
    refine ⟨_, -1, Frame.partitionWithMarker_none hc h0 h1 h2 hstn, ⟨rfl, rfl, h1⟩, ?_, ⟨rfl, by simp⟩, hD ?_⟩
    · intro i hi1 hi2
      rw [← hcd i hi1 hi2, ← hsl i hi1 hi2, hemp]
      simp
      omega
    · intro t ht
      rcases Int.lt_or_le (f.unitStart s.first) t with h | h
      · exact h
      · obtain ⟨x, e1, _⟩ := sliceAtPoints_head (b := f.unitEnd s.last) (pairwise_sortList cand) hab' ⟨t, (mem_sortList _ _).2 ht, h⟩
        rw [hemp] at e1; cases e1
  · obtain ⟨a0, ha0⟩ : ∃ a0, (sliceAtPoints (sortList cand) (f.unitStart s.first) (f.unitEnd s.last)).head? = some a0 :=
      ⟨_, List.head?_eq_some_head hemp⟩
    obtain ⟨a1, ha1⟩ : ∃ a0, (sliceAtPoints (sortList cand) (f.unitStart s.first) (f.unitEnd s.last)).getLast? = some a0 :=
      ⟨_, List.getLast?_eq_some_getLast hemp⟩
    have ha0c : a0 ∈ cand := (mem_sortList _ _).1 (sliceAtPoints_sub (List.mem_of_mem_head? ha0))
    have hstn : ∃ st, f.stencilFor m (f.unitStart s.first) (f.unitEnd s.last) = .ok (some st) ∧
        st.points = sliceAtPoints (sortList cand) (f.unitStart s.first) (f.unitEnd s.last) ∧
        st.leftUndefined = decide (a0 > f.unitStart s.first) ∧ st.leftBound = min a0 (f.unitStart s.first) := by
      unfold Frame.stencilFor
      simp only [hats, Bool.false_eq_true, if_false, hpi, hcand, Bind.bind, Except.bind, ha0, ha1]
      exact ⟨_, rfl, rfl, rfl, rfl⟩
    obtain ⟨st, hst1, hst2, hst3, hst4⟩ := hstn
    obtain ⟨ss, g1, g2, g3, g4⟩ := Frame.partitionWithMarker_some (m := m) hc h0 h1 h2 hst1
    refine ⟨ss, _, g1, g2, ?_, g3, ?_⟩
    · intro i hi1 hi2
      rw [g4, ← hcd i hi1 hi2, ← hsl i hi1 hi2, hst2]
      constructor
      · rintro (h | ⟨_, _, h⟩)
        · omega
        · exact h
      · intro h; exact .inr ⟨hi1, hi2, h⟩
    · by_cases hex : ∃ t ∈ cand, t ≤ f.unitStart s.first
      · have hex' : ∃ x ∈ sortList cand, x ≤ f.unitStart s.first := by
          obtain ⟨t, ht, hta⟩ := hex; exact ⟨t, (mem_sortList _ _).2 ht, hta⟩
        obtain ⟨x, e1, e2, e3, e4⟩ := sliceAtPoints_head (b := f.unitEnd s.last) (pairwise_sortList cand) hab' hex'
        rw [ha0] at e1; cases e1
        refine .inr ⟨a0, (hcm a0 (by omega)).1 ha0c, e3, ?_, ?_⟩
        · intro t' ht' hta
          exact e4 t' ((mem_sortList _ _).2 ((hcm t' (by omega)).2 ht')) hta
        · unfold Frame.skipBefore
          rw [hst3, hst4]
          rw [if_neg (by simp only [decide_eq_true_eq]; omega), show min a0 (f.unitStart s.first) = a0 by omega]
          have e5 : f.freq.base.ordOf (f.unitStart s.first) = f.ord s.first := by unfold Frame.unitStart; rw [Base.ordOf_startOf]
          split
          · rw [countDifference_left hfm h0 (by omega) e3, e5]
          · have : a0 = f.unitStart s.first := by omega
            rw [this]; omega
      · have hall : ∀ t ∈ cand, f.unitStart s.first < t := by
          intro t ht
          rcases Int.lt_or_le (f.unitStart s.first) t with h | h
          · exact h
          · exact absurd ⟨t, ht, h⟩ hex
        have hlt := hall a0 ha0c
        have : f.skipBefore s st (f.unitStart s.first) = -1 := by
          unfold Frame.skipBefore; rw [hst3, if_pos (by simp only [decide_eq_true_eq]; omega)]
        rw [this]
        exact hD hall

theorem Marker.Local.mark_unit {f : Frame} {m : Marker} (hr : m.Local f.freq) {o0 : Int} {u : Time} (h : m.MarkFrom f.freq o0 u) :
    u = f.unitStart (f.freq.base.ordOf u - f.o0) := by
  obtain ⟨i, g, hg, ht⟩ := h
  obtain ⟨_, _, w⟩ := hr.within g hg _ u ht
  unfold Frame.unitStart Frame.ord
  rw [hr.unit, show f.o0 + ((1 : Nat) : Int) * (f.freq.base.ordOf u - f.o0) = f.freq.base.ordOf u by omega]
  exact w

/-- Local markers cut a longer span in the same places. -/
theorem steady_local {f f' : Frame} (hf : f.Continued f') {m : Marker} (hr : checkGroupbyFreq f.freq m.each = true → m.Local f.freq) :
    Cut.Steady f f' (.marker m) := by
  intro s s' ss' h1 h2 h3 h4 h5 h6 hc
  have hacc := Frame.cutSpan_unacceptable hc
  have hacc0 : checkGroupbyFreq f.freq m.each = true := hf.1 ▸ hacc
  have hr := hr hacc0
  obtain ⟨ts', x', g1, g2, g3, g4, g5⟩ := Frame.partition_local (f := f') (s := s') (by rw [hf.1]; exact hr) hacc (by omega) (by omega) h6
  obtain ⟨ts, x, k1, k2, k3, k4, k5⟩ := Frame.partition_local (f := f) (s := s) hr hacc0 h2 h3 h5
  have hcc : f'.partitionWithMarker s' m = .ok ss' := hc
  rw [g1] at hcc; cases hcc
  rw [hf.unitStart, hf.1, ← h1] at g5
  have hx := k5.unique g5
  subst hx
  refine ⟨ts, k1, sameStarts_of k2 g2 h1 k4 g4 ?_⟩
  intro i i1 i2
  rw [k3 i i1 i2, g3 i (by omega) (by omega), hf.unitStart, hf.unitStart, hf.1, h1]

/-- `Marker(each, at=[{...}, ...])` with offsets none of which leads back in time, multiplied or not. -/
theorem local_offsets {bu each : Freq} {offs : List Offset} (hc : checkGroupbyFreq bu each = true) (hm : bu.mult = 1) (hne : offs ≠ [])
    (hpos : ∀ o ∈ offs, o.Nonneg) :
    Marker.Local bu ⟨each, offs.map (fun o => fromStartOfEach (some o))⟩ ∧
    ∀ o0 t, Marker.MarkFrom bu ⟨each, offs.map (fun o => fromStartOfEach (some o))⟩ o0 t ↔
      ∃ off ∈ offs, ∃ i : Nat, addOffset (Period.mk each (o0 + each.mult * i)).startTime (some off) ≤ (Period.mk each (o0 + each.mult * i)).endTime ∧
        t = snap bu (addOffset (Period.mk each (o0 + each.mult * i)).startTime (some off)) := by
  have hal : ∀ o, ∃ o', each.base.startOf o = bu.base.startOf o' := by
    rcases checkGroupby_aligned hc with h | ⟨h, _⟩
    · exact h.2
    · intro o; exact ⟨o, by rw [h]⟩
  have hcmp : ∀ off o, snap bu (addOffset (each.base.startOf o) (some off)) < each.base.startOf (o + each.mult) ↔
      addOffset (each.base.startOf o) (some off) < each.base.startOf (o + each.mult) := by
    intro off o
    constructor
    · intro h
      rcases Int.lt_or_le (addOffset (each.base.startOf o) (some off)) (each.base.startOf (o + each.mult)) with h' | h'
      · exact h'
      · have := snap_within hal h'; omega
    · intro h
      have := snap_le_self bu (addOffset (each.base.startOf o) (some off))
      omega
  have key : ∀ off ∈ offs, ∀ pi : Frame, pi.freq = each → ∃ ts, fromStartOfEach (some off) pi bu = .ok ts ∧
      ∀ t, t ∈ ts ↔ ∃ i : Nat, i < pi.n ∧
        addOffset (each.base.startOf (pi.o0 + (each.mult : Int) * i)) (some off) < each.base.startOf (pi.o0 + (each.mult : Int) * i + each.mult) ∧
        t = snap bu (addOffset (each.base.startOf (pi.o0 + (each.mult : Int) * i)) (some off)) := by
    intro off ho pi hf
    refine ⟨_, fromStartOfEach_eq ((hpos off ho).le_add _), ?_⟩
    have hus : ∀ i, pi.unitStart i = each.base.startOf (pi.o0 + (each.mult : Int) * i) := by
      intro i; unfold Frame.unitStart Frame.ord; rw [hf]
    have hue : ∀ i, pi.unitEnd i = each.base.startOf (pi.o0 + (each.mult : Int) * i + each.mult) - 1 := by
      intro i; unfold Frame.unitEnd Frame.ord; rw [hf]
    intro t
    simp only [List.mem_map, List.mem_filter, List.mem_range, decide_eq_true_eq, hus, hue]
    constructor
    · rintro ⟨i, ⟨h1, h2⟩, rfl⟩
      exact ⟨i, h1, (hcmp _ _).1 (by omega), rfl⟩
    · rintro ⟨i, h1, h3, rfl⟩
      have := (hcmp _ _).2 h3
      exact ⟨i, ⟨h1, by omega⟩, rfl⟩
  have hat : ∀ off ∈ offs, ∀ o t, t ∈ howAt (fromStartOfEach (some off)) each bu o ↔
      addOffset (each.base.startOf o) (some off) < each.base.startOf (o + each.mult) ∧ t = snap bu (addOffset (each.base.startOf o) (some off)) := by
    intro off ho o t
    obtain ⟨ts, h1, h2⟩ := key off ho ⟨each, o, 1⟩ rfl
    unfold howAt
    rw [h1]
    simp only [h2]
    constructor
    · rintro ⟨i, h3, h5⟩
      have : i = 0 := by omega
      subst this
      simpa using h5
    · intro h; exact ⟨0, by omega, by simpa using h⟩
  constructor
  · refine ⟨hm, by simpa using hne, ?_, ?_⟩
    · intro g hg pi hf hn
      obtain ⟨off, ho, rfl⟩ := List.mem_map.1 hg
      obtain ⟨ts, h1, h2⟩ := key off ho pi hf
      refine ⟨ts, h1, fun t => ?_⟩
      rw [h2]
      simp only [hat off ho]
    · intro g hg o t ht
      obtain ⟨off, ho, rfl⟩ := List.mem_map.1 hg
      obtain ⟨h1, h2⟩ := (hat off ho o t).1 ht
      have hnn := (hpos off ho).le_add (each.base.startOf o)
      have a1 := snap_within hal hnn
      have a2 := snap_le_self bu (addOffset (each.base.startOf o) (some off))
      rw [h2]
      exact ⟨a1, by simp only; omega, (snap_snap _ _).symm⟩
  · intro o0 t
    unfold Marker.MarkFrom
    constructor
    · rintro ⟨i, g, hg, ht⟩
      obtain ⟨off, ho, rfl⟩ := List.mem_map.1 hg
      obtain ⟨h1, h2⟩ := (hat off ho _ t).1 ht
      refine ⟨off, ho, i, ?_, h2⟩
      unfold Period.endTime Period.startTime
      simp only at h1 ⊢
      omega
    · rintro ⟨off, ho, i, h3, h4⟩
      unfold Period.endTime Period.startTime at h3
      unfold Period.startTime at h4
      simp only at h3 h4
      exact ⟨i, _, List.mem_map_of_mem ho, (hat off ho _ t).2 ⟨by simp only; omega, h4⟩⟩

end TB
