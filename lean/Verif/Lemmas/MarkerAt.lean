import Verif.Lemmas.When
import Verif.Lemmas.Marker
import Verif.Lemmas.Seek
/-! Partitioning with a marker which has `at`. -/
namespace TB

theorem sliceAtPoints_sub {pts : List Time} {a b x : Int} (h : x ∈ sliceAtPoints pts a b) : x ∈ pts := by
  unfold sliceAtPoints at h
  exact List.mem_of_mem_take (List.mem_of_mem_drop h)

/-- Which elements of the slice remain, by position. -/
theorem mem_sliceAtPoints_idx {pts : List Time} {a b x : Int} :
    x ∈ sliceAtPoints pts a b ↔ ∃ k, ∃ hk : k < pts.length, pts[k] = x ∧ ssRight pts a - 1 ≤ k ∧ (k : Int) ≤ ssLeft pts b := by
  unfold sliceAtPoints
  simp only
  rw [List.mem_drop_iff_getElem]
  have h1 := ssRight_nonneg pts a
  have h2 := ssLeft_nonneg pts b
  have h3 := ssLeft_le pts b
  constructor
  · rintro ⟨j, hj, e⟩
    rw [List.length_take] at hj
    rw [List.getElem_take] at e
    refine ⟨(max 0 (ssRight pts a - 1)).toNat + j, by omega, e, by omega, by omega⟩
  · rintro ⟨k, hk, rfl, h4, h5⟩
    refine ⟨k - (max 0 (ssRight pts a - 1)).toNat, ?_, ?_⟩
    · rw [List.length_take]; omega
    · rw [List.getElem_take]
      congr 1
      omega

/-- Points strictly inside of the span always remain. -/
theorem mem_sliceAtPoints {pts : List Time} {a b x : Int} (hs : pts.Pairwise (· ≤ ·)) (hx : x ∈ pts) (h1 : a < x) (h2 : x < b) :
    x ∈ sliceAtPoints pts a b := by
  obtain ⟨k, hk, rfl⟩ := List.getElem_of_mem hx
  rw [mem_sliceAtPoints_idx]
  have e1 := getElem_le_iff hs a k hk
  have e2 := getElem_lt_iff hs b k hk
  exact ⟨k, hk, rfl, by omega, by omega⟩

/-- For points without repetitions: the last point at or before the start of the span and the first point at or after the end
also remain. -/
theorem mem_sliceAtPoints_iff {pts : List Time} {a b x : Int} (hs : pts.Pairwise (· < ·)) :
    x ∈ sliceAtPoints pts a b ↔ x ∈ pts ∧ (∀ y ∈ pts, x < y → a < y) ∧ (∀ y ∈ pts, y < x → y < b) := by
  have hs' := pairwise_le_of_lt hs
  rw [mem_sliceAtPoints_idx]
  have hr := ssRight_le pts a
  have hl := ssLeft_nonneg pts b
  constructor
  · rintro ⟨k, hk, rfl, h1, h2⟩
    refine ⟨List.getElem_mem _, ?_, ?_⟩
    · intro y hy hlt
      obtain ⟨j, hj, rfl⟩ := List.getElem_of_mem hy
      have e := getElem_le_iff hs' a j hj
      have := (pairwise_lt_getElem_iff hs hk hj).1 hlt
      omega
    · intro y hy hlt
      obtain ⟨j, hj, rfl⟩ := List.getElem_of_mem hy
      have e := getElem_lt_iff hs' b j hj
      have := (pairwise_lt_getElem_iff hs hj hk).1 hlt
      omega
  · rintro ⟨hx, h1, h2⟩
    obtain ⟨k, hk, rfl⟩ := List.getElem_of_mem hx
    refine ⟨k, hk, rfl, ?_, ?_⟩
    · rcases Int.lt_or_le (k + 1) (ssRight pts a) with h | h
      · have e := (getElem_le_iff hs' a (k + 1) (by omega)).2 (by omega)
        have := h1 _ (List.getElem_mem (show k + 1 < pts.length by omega)) ((pairwise_lt_getElem_iff hs hk (by omega)).2 (by omega))
        omega
      · omega
    · rcases Nat.eq_zero_or_pos k with h | h
      · omega
      · have e := h2 _ (List.getElem_mem (show k - 1 < pts.length by omega)) ((pairwise_lt_getElem_iff hs (by omega) hk).2 (by omega))
        have := (getElem_lt_iff hs' b (k - 1) (by omega)).1 e
        omega

theorem getFreqDelta_pos (f : Freq) : 0 < getFreqDelta f := by
  unfold getFreqDelta
  have hm := f.mult_pos
  have := (f.base.startOf_lt_iff (f.base.ordOf (date 2016 7 1)) (f.base.ordOf (date 2016 7 1) + f.mult)).2 (by omega)
  simp only
  omega

/-- Accepted unmultiplied marker frequencies. -/
theorem checkGroupby_unit {bu gb : Freq} (h : checkGroupbyFreq bu gb = true) (hm : gb.mult = 1) :
    bu.mult = 1 ∧ ∀ o, ∃ o', gb.base.startOf o = bu.base.startOf o' := by
  rcases checkGroupby_aligned h with h1 | ⟨h1, h2⟩
  · exact h1
  · rw [hm] at h2
    exact ⟨Nat.dvd_one.1 h2, fun o => ⟨o, by rw [h1]⟩⟩

/-- An offset none of whose components is negative. -/
def Offset.Nonneg (o : Offset) : Prop :=
  0 ≤ o.years ∧ 0 ≤ o.months ∧ 0 ≤ o.weeks ∧ 0 ≤ o.days ∧ 0 ≤ o.hours ∧ 0 ≤ o.minutes ∧ 0 ≤ o.seconds

instance (o : Offset) : Decidable o.Nonneg := by unfold Offset.Nonneg; infer_instance

theorem le_addMonths {t : Time} {n : Int} (h : 0 ≤ n) : t ≤ addMonths t n := by
  rcases Int.lt_or_le 0 n with h0 | h0
  · unfold addMonths
    have h1 := monthOf_spec (dayOf t)
    have h2 := monthStart_le (show monthOf (dayOf t) + 1 ≤ monthOf (dayOf t) + n by omega)
    have h3 : 1 ≤ dayOfMonth (dayOf t) := by unfold dayOfMonth; omega
    have h4 : 1 ≤ monthLen (monthOf (dayOf t) + n) := by
      unfold monthLen; have := monthStart_lt_succ (monthOf (dayOf t) + n); omega
    have h5 : dayOf t + 1 ≤ monthStart (monthOf (dayOf t) + n) + min (dayOfMonth (dayOf t)) (monthLen (monthOf (dayOf t) + n)) - 1 := by omega
    have h6 := Int.mul_le_mul_of_nonneg_right h5 (show 0 ≤ nsDay by decide)
    have e := Int.mul_ediv_add_emod t nsDay
    have e1 := Int.emod_lt_of_pos t (show 0 < nsDay by decide)
    have e2 := Int.emod_nonneg t (show nsDay ≠ 0 by decide)
    simp only
    have : dayOf t * nsDay = nsDay * (t / nsDay) := by unfold dayOf; rw [Int.mul_comm]
    rw [Int.add_mul, Int.one_mul, this] at h6
    omega
  · have : n = 0 := by omega
    subst this
    rw [addMonths_zero]; exact Int.le_refl _

theorem Offset.Nonneg.le_add {o : Offset} (h : o.Nonneg) (t : Time) : t ≤ addOffset t (some o) := by
  obtain ⟨h1, h2, h3, h4, h5, h6, h7⟩ := h
  have := le_addMonths (t := t) (n := 12 * o.years + o.months) (by omega)
  simp only [addOffset, Offset.fixed, nsDay, nsHour, nsMin, nsSec]
  omega

/-- The marks made by `from_start_of_each`. -/
theorem fromStartOfEach_eq {off : Option Offset} {pi : Frame} {nb : Freq} (h : testTime ≤ addOffset testTime off) :
    fromStartOfEach off pi nb = .ok (((List.range pi.n).filter (fun (i : Nat) =>
      decide (snap nb (addOffset (pi.unitStart i) off) ≤ pi.unitEnd i))).map (fun (i : Nat) => snap nb (addOffset (pi.unitStart i) off))) := by
  unfold fromStartOfEach
  rw [if_neg (by omega)]
  unfold Frame.startTimes Frame.endTimes
  rw [List.map_map, maskBy_map]
  rfl

theorem fromStartOfEach_negative {off : Option Offset} {pi : Frame} {nb : Freq} (h : addOffset testTime off < testTime) :
    fromStartOfEach off pi nb = .ok [] := by
  unfold fromStartOfEach
  rw [if_pos h]

/-- The union of the marks of all offsets. -/
theorem collectAts_offsets (pi : Frame) (nb : Freq) (offs : List (Option Offset)) :
    ∃ cand, collectAts pi nb (offs.map fromStartOfEach) = .ok cand ∧
      ∀ t, t ∈ cand ↔ ∃ off ∈ offs, testTime ≤ addOffset testTime off ∧ ∃ i : Nat, i < pi.n ∧
        t = snap nb (addOffset (pi.unitStart i) off) ∧ t ≤ pi.unitEnd i := by
  induction offs with
  | nil => exact ⟨[], rfl, by simp⟩
  | cons off offs ih =>
    obtain ⟨cand, h1, h2⟩ := ih
    simp only [List.map_cons, collectAts, h1]
    by_cases h : testTime ≤ addOffset testTime off
    · rw [fromStartOfEach_eq h]
      refine ⟨_, rfl, ?_⟩
      intro t
      rw [List.mem_append, h2, List.mem_map]
      constructor
      · rintro (⟨i, hi, rfl⟩ | ⟨o, ho, h3⟩)
        · simp only [List.mem_filter, List.mem_range, decide_eq_true_eq] at hi
          exact ⟨off, by simp, h, i, hi.1, rfl, hi.2⟩
        · exact ⟨o, by simp [ho], h3⟩
      · rintro ⟨o, ho, h3, i, hi, e, h4⟩
        rw [List.mem_cons] at ho
        rcases ho with rfl | ho
        · exact .inl ⟨i, by simp only [List.mem_filter, List.mem_range, decide_eq_true_eq]; exact ⟨hi, by rw [← e]; exact h4⟩, e.symm⟩
        · exact .inr ⟨o, ho, h3, i, hi, e, h4⟩
    · rw [fromStartOfEach_negative (by omega)]
      refine ⟨_, rfl, ?_⟩
      intro t
      rw [List.nil_append, h2]
      constructor
      · rintro ⟨o, ho, h3⟩; exact ⟨o, by simp [ho], h3⟩
      · rintro ⟨o, ho, h3, h4⟩
        rw [List.mem_cons] at ho
        rcases ho with rfl | ho
        · exact absurd h3 h
        · exact ⟨o, ho, h3, h4⟩

/-- The stencil frame of a marker with `at`: an envelope of the span. -/
theorem stencil_envelope {each : Freq} (hm : each.mult = 1) {a b : Time} (hab : a ≤ b) :
    ∃ pi, Frame.new each (a - getFreqDelta each) (b + getFreqDelta each) = .ok pi ∧ pi.freq = each ∧
      pi.o0 = each.base.ordOf (a - getFreqDelta each) ∧ pi.o0 ≤ each.base.ordOf a ∧
      each.base.ordOf b < pi.o0 + pi.n ∧ pi.o0 + pi.n = each.base.ordOf (b + getFreqDelta each) + 1 ∧
      (∀ i, pi.unitStart i = each.base.startOf (pi.o0 + i)) ∧ (∀ i, pi.unitEnd i = each.base.startOf (pi.o0 + i + 1) - 1) := by
  have hd := getFreqDelta_pos each
  have ho := each.base.ordOf_mono (show a - getFreqDelta each ≤ b + getFreqDelta each by omega)
  have ho1 := each.base.ordOf_mono (show a - getFreqDelta each ≤ a by omega)
  have ho2 := each.base.ordOf_mono (show b ≤ b + getFreqDelta each by omega)
  have hu : ∀ (pi : Frame), pi.freq = each → ∀ i, pi.unitStart i = each.base.startOf (pi.o0 + i) := by
    intro pi hf i
    unfold Frame.unitStart Frame.ord
    rw [hf, hm]
    congr 1; omega
  refine ⟨_, Frame.new_ok_iff.2 ⟨ho, rfl⟩, rfl, rfl, ho1, ?_, ?_, hu _ rfl, ?_⟩
  · simp only [hm]; omega
  · simp only [hm]; omega
  · intro i; rw [Frame.unitEnd_eq, hu _ rfl]; congr 2; omega

/-- **Partitioning with a marker with offsets.** -/
theorem Frame.partition_offsets {f : Frame} {s : Span} {each : Freq} {offs : List Offset} (hc : checkGroupbyFreq f.freq each = true)
    (hm : each.mult = 1) (hne : offs ≠ []) (hpos : ∀ o ∈ offs, o.Nonneg) (h0 : 0 ≤ s.first) (h1 : s.first ≤ s.last) (h2 : s.last < f.n) :
    ∃ ss, f.partitionWithMarker s ⟨each, (offs.map some).map fromStartOfEach⟩ = .ok ss ∧ Tiles s.first s.last ss ∧
      ∀ i, s.first < i → i ≤ s.last → ((∃ x ∈ ss, x.first = i) ↔
        ∃ off ∈ offs, ∃ o, addOffset (each.base.startOf o) (some off) < each.base.startOf (o + 1) ∧
          f.unitStart i ≤ addOffset (each.base.startOf o) (some off) ∧ addOffset (each.base.startOf o) (some off) ≤ f.unitEnd i) := by
  obtain ⟨hfm, hal⟩ := checkGroupby_unit hc hm
  have hab := Frame.unitStart_le_unitEnd' (f := f) h1
  obtain ⟨pi, hpi, hpf, hp0, hpl, hpr, _, hps, hpe⟩ := stencil_envelope hm hab
  obtain ⟨cand, hcand, hmem⟩ := collectAts_offsets pi f.freq (offs.map some)
  have hus : ∀ i, f.unitStart i = f.freq.base.startOf (f.o0 + i) := by
    intro i; unfold Frame.unitStart Frame.ord; rw [hfm]; congr 1; omega
  have hue : ∀ i, f.unitEnd i = f.freq.base.startOf (f.o0 + i + 1) - 1 := by
    intro i; rw [Frame.unitEnd_eq, hus]; congr 2; omega
  have hats : ((offs.map some).map fromStartOfEach).isEmpty = false := by cases offs <;> simp at hne ⊢
  -- the candidates in the terms of the statement
  have hcd : ∀ i, s.first < i → i ≤ s.last → (f.unitStart i ∈ cand ↔ ∃ off ∈ offs, ∃ o,
      addOffset (each.base.startOf o) (some off) < each.base.startOf (o + 1) ∧
      f.unitStart i ≤ addOffset (each.base.startOf o) (some off) ∧ addOffset (each.base.startOf o) (some off) ≤ f.unitEnd i) := by
    intro i hi1 hi2
    rw [hmem]
    constructor
    · rintro ⟨off', ho', _, j, hj, e, h3⟩
      rw [List.mem_map] at ho'
      obtain ⟨off, ho, rfl⟩ := ho'
      refine ⟨off, ho, pi.o0 + j, ?_⟩
      rw [hps] at e
      rw [hpe] at h3
      generalize addOffset (each.base.startOf (pi.o0 + j)) (some off) = t at *
      unfold snap at e
      have e' : f.freq.base.ordOf t = f.o0 + i := by
        rw [hus] at e; exact (Base.startOf_inj _ e).symm
      have h4 := f.freq.base.startOf_le_self t
      have h5 := f.freq.base.lt_startOf_succ t
      rw [e'] at h4 h5
      rw [hue]
      refine ⟨?_, by rw [hus]; exact h4, by omega⟩
      obtain ⟨o', ho'⟩ := hal (pi.o0 + j + 1)
      rw [ho'] at h3 ⊢
      rw [hus] at h3
      have := (f.freq.base.startOf_lt_iff (f.o0 + i) o').1 (by omega)
      have := (f.freq.base.startOf_le_startOf (f.o0 + i + 1) o').2 (by omega)
      omega
    · rintro ⟨off, ho, o, h3, h4, h5⟩
      have hnn := (hpos off ho).le_add (each.base.startOf o)
      refine ⟨some off, List.mem_map_of_mem ho, (hpos off ho).le_add _, (o - pi.o0).toNat, ?_⟩
      have hot : each.base.ordOf (addOffset (each.base.startOf o) (some off)) = o :=
        (Base.ordOf_eq_iff _ _ _).2 ⟨hnn, h3⟩
      have hlo : each.base.ordOf (f.unitStart s.first) ≤ o := by
        rw [← hot]; apply Base.ordOf_mono
        have := Frame.unitStart_lt (f := f) hi1
        omega
      have hhi : o ≤ each.base.ordOf (f.unitEnd s.last) := by
        rw [← hot]; apply Base.ordOf_mono
        have := Frame.unitStart_le_iff (f := f) (i := i + 1) (j := s.last + 1)
        rw [Frame.unitEnd_eq] at h5 ⊢
        omega
      have hoo : pi.o0 + (((o - pi.o0).toNat : Nat) : Int) = o := by omega
      rw [hps, hpe, hoo]
      have hsn : snap f.freq (addOffset (each.base.startOf o) (some off)) = f.unitStart i := by
        unfold snap
        rw [hus]
        congr 1
        rw [Base.ordOf_eq_iff, ← hus]
        rw [hue] at h5
        exact ⟨h4, by omega⟩
      refine ⟨by omega, hsn.symm, by omega⟩
  -- points are starts of base units
  have hst : ∀ t ∈ cand, ∃ i, t = f.unitStart i := by
    intro t ht
    obtain ⟨off, _, _, j, _, rfl, _⟩ := (hmem t).1 ht
    refine ⟨f.freq.base.ordOf (addOffset (pi.unitStart j) off) - f.o0, ?_⟩
    rw [hus]; unfold snap; congr 1; omega
  have hsl : ∀ i, s.first < i → i ≤ s.last → ((∃ t ∈ sliceAtPoints (sortList cand) (f.unitStart s.first) (f.unitEnd s.last),
      f.unitStart i ≤ t ∧ t < f.noticedEnd i) ↔ f.unitStart i ∈ cand) := by
    intro i hi1 hi2
    have hnl := f.noticedEnd_le i
    constructor
    · rintro ⟨t, ht, h3, h4⟩
      have ht' := (mem_sortList _ _).1 (sliceAtPoints_sub ht)
      obtain ⟨i', rfl⟩ := hst t ht'
      have : i = i' := Frame.unit_unique (f := f) (t := f.unitStart i') h3 (by omega) (by omega) (f.unitStart_le_unitEnd i')
      rw [this]; exact ht'
    · intro h3
      refine ⟨f.unitStart i, mem_sliceAtPoints (pairwise_sortList _) ((mem_sortList _ _).2 h3) (Frame.unitStart_lt hi1) ?_, by omega, ?_⟩
      · have := Frame.unitStart_le_iff (f := f) (i := i + 1) (j := s.last + 1)
        have := f.unitStart_add_sec i
        have : (1 : Int) < nsSec := by decide
        rw [Frame.unitEnd_eq]
        omega
      · unfold Frame.noticedEnd
        have := nsSec_pos
        have := @Frame.unitStart_lt f i (i + 1) (by omega)
        split <;> omega
  by_cases hemp : sliceAtPoints (sortList cand) (f.unitStart s.first) (f.unitEnd s.last) = []
  · have hstn : f.stencilFor ⟨each, (offs.map some).map fromStartOfEach⟩ (f.unitStart s.first) (f.unitEnd s.last) = .ok none := by
      unfold Frame.stencilFor
      simp only [hats, Bool.false_eq_true, if_false, hpi, hcand, Bind.bind, Except.bind, hemp]
      rfl
    refine ⟨_, Frame.partitionWithMarker_none hc h0 h1 h2 hstn, ?_, ?_⟩
    · exact ⟨rfl, rfl, h1⟩
    · intro i hi1 hi2
      rw [← hcd i hi1 hi2, ← hsl i hi1 hi2, hemp]
      simp
      omega
  · obtain ⟨a0, ha0⟩ : ∃ a0, (sliceAtPoints (sortList cand) (f.unitStart s.first) (f.unitEnd s.last)).head? = some a0 :=
      ⟨_, List.head?_eq_some_head hemp⟩
    obtain ⟨a1, ha1⟩ : ∃ a0, (sliceAtPoints (sortList cand) (f.unitStart s.first) (f.unitEnd s.last)).getLast? = some a0 :=
      ⟨_, List.getLast?_eq_some_getLast hemp⟩
    have hstn : ∃ st, f.stencilFor ⟨each, (offs.map some).map fromStartOfEach⟩ (f.unitStart s.first) (f.unitEnd s.last) = .ok (some st) ∧
        st.points = sliceAtPoints (sortList cand) (f.unitStart s.first) (f.unitEnd s.last) := by
      unfold Frame.stencilFor
      simp only [hats, Bool.false_eq_true, if_false, hpi, hcand, Bind.bind, Except.bind, ha0, ha1]
      exact ⟨_, rfl, rfl⟩
    obtain ⟨st, hst1, hst2⟩ := hstn
    obtain ⟨ss, g1, g2, _, g4⟩ := Frame.partitionWithMarker_some (m := ⟨each, (offs.map some).map fromStartOfEach⟩) hc h0 h1 h2 hst1
    refine ⟨ss, g1, g2, ?_⟩
    intro i hi1 hi2
    rw [g4, ← hcd i hi1 hi2, ← hsl i hi1 hi2, hst2]
    constructor
    · rintro (h | ⟨_, _, h⟩)
      · omega
      · exact h
    · intro h; exact .inr ⟨hi1, hi2, h⟩

end TB
