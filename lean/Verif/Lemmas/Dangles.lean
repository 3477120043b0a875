import Verif.Lemmas.Anchor
/-! Both dangles of a span. -/
namespace TB

theorem dangles_set (x y : Int) {ss : List Span} (hne : ss ≠ []) (h : ∀ s ∈ ss, s.skipLeft = 0 ∧ s.skipRight = 0) :
    Dangles x y (setLastSkip y (setFirstSkip x ss)) := by
  have hlast : ∀ (l : List Span), l ≠ [] → (∀ s ∈ l, s.skipRight = 0) →
      (setLastSkip y l).map Span.skipRight = List.replicate (l.length - 1) 0 ++ [y] := by
    intro l
    induction l with
    | nil => intro h; exact absurd rfl h
    | cons s ss ih =>
      intro _ hz
      cases ss with
      | nil => rfl
      | cons t r =>
        have := ih (by simp) (fun s hs => hz s (List.mem_cons_of_mem _ hs))
        simp only [setLastSkip, List.map_cons, this, hz s (by simp), List.length_cons, Nat.add_sub_cancel, List.replicate_succ, List.cons_append]
  have hlen : ∀ (l : List Span), (setLastSkip y l).length = l.length := by
    intro l
    have := congrArg List.length (setLastSkip_bounds y l)
    simpa using this
  cases ss with
  | nil => exact absurd rfl hne
  | cons s ss =>
    have hz : ∀ l : List Span, (∀ s ∈ l, s.skipLeft = 0) → l.map Span.skipLeft = List.replicate l.length 0 := by
      intro l
      induction l with
      | nil => intro _; rfl
      | cons a l ih =>
        intro hl
        simp only [List.map_cons, List.length_cons, List.replicate_succ, hl a (by simp), ih (fun s hs => hl s (List.mem_cons_of_mem _ hs))]
    constructor
    · rw [setLastSkip_left, hlen]
      simp only [setFirstSkip, List.map_cons, List.length_cons, Nat.add_sub_cancel, hz ss (fun s hs => (h s (List.mem_cons_of_mem _ hs)).1)]
    · rw [hlast _ (by simp [setFirstSkip])]
      · rw [hlen]
      · intro t ht
        simp only [setFirstSkip, List.mem_cons] at ht
        rcases ht with rfl | ht
        · exact (h s (by simp)).2
        · exact (h t (by simp [ht])).2

/-- The general form of a successful partitioning, with both dangles. -/
theorem Frame.partitionWithMarker_dangles {f : Frame} {s : Span} {m : Marker} {st : Stencil}
    (hc : checkGroupbyFreq f.freq m.each = true) (h0 : 0 ≤ s.first) (h1 : s.first ≤ s.last) (h2 : s.last < f.n)
    (hst : f.stencilFor m (f.unitStart s.first) (f.unitEnd s.last) = .ok (some st)) :
    ∃ ss, f.partitionWithMarker s m = .ok ss ∧
      Dangles (f.skipBefore s st (f.unitStart s.first)) (f.skipAfter s st (f.unitEnd s.last)) ss := by
  obtain ⟨spans, hsp⟩ := Frame.createSubspans_exists st.points h0 h1 h2
  have hk := Frame.checkSpan_ok_iff.2 ⟨h0, h1, h2⟩
  have e : f.partitionWithMarker s m = .ok (setLastSkip (f.skipAfter s st (f.unitEnd s.last))
      (setFirstSkip (f.skipBefore s st (f.unitStart s.first)) spans)) := by
    unfold Frame.partitionWithMarker
    simp only [Bind.bind, Except.bind, pure, Except.pure, throw, throwThe, MonadExceptOf.throw, hc, hk, hst, hsp,
      Bool.not_true, Bool.false_eq_true, if_false]
  refine ⟨_, e, dangles_set _ _ ?_ ?_⟩
  · intro h
    have := (Frame.createSubspans_tiles hsp).2.2
    rw [h] at this
    exact this
  · obtain ⟨_, _, _, rfl⟩ := Frame.createSubspans_ok_iff.1 hsp
    exact spansBetween_skip _ _ _

/-- Counting the base units of the right dangle. -/
theorem countDifference_right {f : Frame} {last : Int} (h0 : 0 ≤ last) (h1 : last < f.n) {t : Time} (ht : f.unitStart last ≤ t) :
    countDifference (periodRange f.freq (f.unitStart last) t) (f.ords.take (last + 1).toNat) =
      (f.freq.base.ordOf t - f.ord last) / (f.freq.mult : Int) := by
  have e1 : f.freq.base.ordOf (f.unitStart last) = f.ord last := by unfold Frame.unitStart; rw [Base.ordOf_startOf]
  have h2 : f.ord last ≤ f.freq.base.ordOf t := by rw [← e1]; exact Base.ordOf_mono _ ht
  have hm := f.freq.mult_pos
  have hq0 : 0 ≤ (f.freq.base.ordOf t - f.ord last) / (f.freq.mult : Int) := Int.ediv_nonneg (by omega) (by omega)
  have hmem : ∀ o, o ∈ f.ords.take (last + 1).toNat ↔ ∃ j : Int, 0 ≤ j ∧ j ≤ last ∧ o = f.ord j := by
    intro o
    rw [List.mem_take_iff_getElem]
    constructor
    · rintro ⟨j, hj, rfl⟩
      rw [f.length_ords] at hj
      exact ⟨j, by omega, by omega, by rw [f.getElem_ords]⟩
    · rintro ⟨j, j0, j1, rfl⟩
      refine ⟨j.toNat, by rw [f.length_ords]; omega, ?_⟩
      rw [f.getElem_ords]
      congr 1
      omega
  unfold countDifference periodRange
  simp only [e1]
  rw [if_neg (by omega)]
  obtain ⟨q, hq⟩ : ∃ q : Nat, (f.freq.base.ordOf t - f.ord last) / (f.freq.mult : Int) = q := ⟨_, (Int.toNat_of_nonneg hq0).symm⟩
  rw [hq, show ((q : Int) + 1).toNat = q + 1 by omega, List.range_succ_eq_map, List.map_cons, List.filter_cons]
  have hfst : (f.ords.take (last + 1).toNat).contains (f.ord last + (f.freq.mult : Int) * ((0 : Nat) : Int)) = true := by
    rw [List.contains_iff_mem, hmem]
    exact ⟨last, h0, by omega, by simp⟩
  rw [hfst]
  simp only [Bool.not_true, Bool.false_eq_true, if_false]
  rw [List.filter_eq_self.2]
  · simp
  · intro o ho
    simp only [List.map_map, List.mem_map, List.mem_range, Function.comp_apply] at ho
    obtain ⟨i, hi, rfl⟩ := ho
    rw [Bool.not_eq_true', ← Bool.not_eq_true, List.contains_iff_mem, hmem]
    rintro ⟨j, j0, j1, hj⟩
    have h3 := Frame.ord_le (f := f) j1
    have h4 : 0 < (f.freq.mult : Int) * ((i + 1 : Nat) : Int) := Int.mul_pos (by omega) (by omega)
    simp only [Nat.succ_eq_add_one] at hj
    omega

/-- The right dangle up to the start of unit `i`. -/
theorem Frame.skipAfter_unit {f : Frame} {s : Span} {st : Stencil} (h0 : 0 ≤ s.last) (h2 : s.last < f.n) (hr : st.rightUndefined = false)
    {i : Int} (hi : s.last < i) (hle : f.unitEnd s.last ≤ st.rightBound) (hb : f.freq.base.ordOf st.rightBound = f.ord i - 1)
    : f.skipAfter s st (f.unitEnd s.last) = i - s.last - 1 := by
  have hm := f.freq.mult_pos
  have hord : f.ord i - f.ord s.last = f.freq.mult * (i - s.last) := by unfold Frame.ord; rw [Int.mul_sub]; omega
  have hdiv : (f.ord i - 1 - f.ord s.last) / (f.freq.mult : Int) = i - s.last - 1 := by
    rw [show f.ord i - 1 - f.ord s.last = f.freq.mult * (i - s.last) - 1 by omega]
    rw [show (f.freq.mult : Int) * (i - s.last) - 1 = (f.freq.mult - 1) + f.freq.mult * (i - s.last - 1) by rw [Int.mul_sub _ _ 1]; omega]
    rw [Int.add_mul_ediv_left _ _ (by omega), Int.ediv_eq_zero_of_lt (by omega) (by omega)]
    omega
  unfold Frame.skipAfter
  rw [hr]
  simp only [Bool.false_eq_true, if_false]
  have hsl := f.unitStart_le_unitEnd s.last
  split
  · rw [countDifference_right h0 h2 (by omega), hb, hdiv]
  · have he : st.rightBound = f.unitEnd s.last := by omega
    rw [he, Frame.unitEnd_eq] at hb
    have e2 : f.freq.base.ordOf (f.unitStart (s.last + 1) - 1) = f.ord (s.last + 1) - 1 := by
      unfold Frame.unitStart
      have := f.freq.base.startOf_step (f.ord (s.last + 1) - 1)
      rw [show f.ord (s.last + 1) - 1 + 1 = f.ord (s.last + 1) by omega] at this
      have hns := nsSec_pos
      rw [Base.ordOf_eq_iff, show f.ord (s.last + 1) - 1 + 1 = f.ord (s.last + 1) by omega]
      omega
    rw [e2] at hb
    have : f.ord (s.last + 1) = f.ord i := by omega
    have h3 := Frame.ord_lt (f := f) (i := s.last + 1) (j := i)
    have h4 : ¬ s.last + 1 < i := fun h => by have := h3 h; omega
    omega

theorem sliceAtPoints_last {pts : List Time} {a b : Int} (hs : pts.Pairwise (· ≤ ·)) (hab : a < b) (h : ∃ x ∈ pts, b ≤ x) :
    ∃ x, (sliceAtPoints pts a b).getLast? = some x ∧ x ∈ pts ∧ b ≤ x ∧ ∀ y ∈ pts, b ≤ y → x ≤ y := by
  obtain ⟨y, hy, hya⟩ := h
  obtain ⟨k, hk, rfl⟩ := List.getElem_of_mem hy
  have e1 := (getElem_lt_iff hs b k hk)
  have hl0 := ssLeft_nonneg pts b
  have hlt : (ssLeft pts b).toNat < pts.length := by omega
  have e2 := (getElem_lt_iff hs b (ssLeft pts b).toNat hlt)
  have e3 := (getElem_le_iff hs a (ssLeft pts b).toNat hlt)
  have hb : b ≤ pts[(ssLeft pts b).toNat] := by
    rcases Int.lt_or_le pts[(ssLeft pts b).toNat] b with h | h
    · have := e2.1 h; omega
    · exact h
  refine ⟨pts[(ssLeft pts b).toNat], ?_, List.getElem_mem _, hb, ?_⟩
  · unfold sliceAtPoints
    have hhi : (min (pts.length : Int) (ssLeft pts b + 1)).toNat = (ssLeft pts b).toNat + 1 := by omega
    have hlo : (max 0 (ssRight pts a - 1)).toNat ≤ (ssLeft pts b).toNat := by
      have : ¬ ((ssLeft pts b).toNat : Int) < ssRight pts a := fun h => by have := e3.2 h; omega
      omega
    simp only [hhi]
    rw [List.getLast?_drop, List.length_take, if_neg (by omega), List.getLast?_take]
    simp [List.getElem?_eq_getElem hlt]
  · intro z hz hza
    obtain ⟨j, hj, rfl⟩ := List.getElem_of_mem hz
    have e4 := (getElem_lt_iff hs b j hj)
    rcases Nat.lt_or_ge (ssLeft pts b).toNat j with h | h
    · exact List.pairwise_iff_getElem.1 hs _ j hlt hj h
    · have : ¬ (j : Int) < ssLeft pts b := fun h => by have := e4.2 h; omega
      have : j = (ssLeft pts b).toNat := by omega
      subst this
      exact Int.le_refl _

end TB
