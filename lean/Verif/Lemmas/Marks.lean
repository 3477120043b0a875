import Verif.Lemmas.Partition
/-! Which base units start sub-spans. -/
namespace TB

/-- The part of a base unit in which a mark is noticed: the whole unit, but only the first second of the last unit of the
frame. -/
def Frame.noticedEnd (f : Frame) (i : Int) : Time :=
  if i = (f.n : Int) - 1 then f.unitStart i + nsSec else f.unitStart (i + 1)

theorem Frame.noticedEnd_le (f : Frame) (i : Int) : f.noticedEnd i ≤ f.unitEnd i + 1 := by
  unfold Frame.noticedEnd
  rw [Frame.unitEnd_eq]
  have := f.unitStart_add_sec i
  split <;> omega

theorem Frame.extended_sorted (f : Frame) :
    (f.startTimes ++ [f.unitStart ((f.n : Int) - 1) + nsSec]).Pairwise (· ≤ ·) := by
  rw [List.pairwise_append]
  refine ⟨pairwise_le_of_lt f.pairwise_startTimes, by simp, ?_⟩
  intro a ha b hb
  simp only [List.mem_singleton] at hb
  subst hb
  simp only [Frame.startTimes, List.mem_map, List.mem_range] at ha
  obtain ⟨i, hi, rfl⟩ := ha
  have := Frame.unitStart_le_iff (f := f) (i := (i : Int)) (j := (f.n : Int) - 1)
  have := nsSec_pos
  omega

/-- Location of a point by `get_loc_vectorized` before filtering. -/
theorem Frame.vectorLoc_iff {f : Frame} {t : Time} {i : Int} (h0 : 0 ≤ i) (h1 : i < f.n) :
    ssRight (f.startTimes ++ [f.unitStart ((f.n : Int) - 1) + nsSec]) t - 1 = i ↔ (f.unitStart i ≤ t ∧ t < f.noticedEnd i) := by
  have hs := f.extended_sorted
  have hlen : (f.startTimes ++ [f.unitStart ((f.n : Int) - 1) + nsSec]).length = f.n + 1 := by simp [f.length_startTimes]
  have hget : ∀ (j : Nat) (hj : j < (f.startTimes ++ [f.unitStart ((f.n : Int) - 1) + nsSec]).length),
      (f.startTimes ++ [f.unitStart ((f.n : Int) - 1) + nsSec])[j] =
        if j < f.n then f.unitStart j else f.unitStart ((f.n : Int) - 1) + nsSec := by
    intro j hj
    by_cases hjn : j < f.n
    · rw [List.getElem_append_left (by rw [f.length_startTimes]; exact hjn), f.getElem_startTimes, if_pos hjn]
    · rw [List.getElem_append_right (by rw [f.length_startTimes]; omega), if_neg hjn]; simp
  have hiff := getElem_le_iff hs t
  have e1 := hiff i.toNat (by omega)
  have e2 := hiff (i + 1).toNat (by omega)
  rw [hget] at e1 e2
  rw [if_pos (by omega)] at e1
  have t1 : ((i.toNat : Nat) : Int) = i := by omega
  have t2 : (((i + 1).toNat : Nat) : Int) = i + 1 := by omega
  rw [t1] at e1
  rw [t2] at e2
  unfold Frame.noticedEnd
  by_cases hl : i = (f.n : Int) - 1
  · rw [if_neg (by omega)] at e2
    rw [if_pos hl]
    rw [← hl] at e2
    rw [← hl]
    rw [← hl] at e1
    omega
  · rw [if_pos (by omega)] at e2
    rw [if_neg hl]
    omega

theorem Frame.mem_getLocVectorized {f : Frame} {pts : List Time} {a b i : Int} (h0 : 0 ≤ a) (h1 : b < f.n) :
    i ∈ f.getLocVectorized pts a b ↔ (a < i ∧ i ≤ b ∧ ∃ t ∈ pts, f.unitStart i ≤ t ∧ t < f.noticedEnd i) := by
  unfold Frame.getLocVectorized
  simp only [List.mem_filter, List.mem_map, Bool.and_eq_true, decide_eq_true_eq]
  constructor
  · rintro ⟨⟨t, ht, e⟩, h2, h3⟩
    exact ⟨h2, h3, t, ht, (Frame.vectorLoc_iff (by omega) (by omega)).1 e⟩
  · rintro ⟨h2, h3, t, ht, e⟩
    exact ⟨⟨t, ht, (Frame.vectorLoc_iff (by omega) (by omega)).2 e⟩, h2, h3⟩

theorem spansBetween_first {a b i : Int} {ps : List Int} : (∃ s ∈ spansBetween a b ps, s.first = i) ↔ i = a ∨ i ∈ ps := by
  have h := firsts_spansBetween a b ps
  have : (∃ s ∈ spansBetween a b ps, s.first = i) ↔ i ∈ (spansBetween a b ps).map Span.first := by
    rw [List.mem_map]
  rw [this, h, List.mem_cons]

theorem Frame.createSubspans_first {f : Frame} {s : Span} {pts : List Time} {ss : List Span}
    (h : f.createSubspans s pts = .ok ss) (i : Int) :
    (∃ x ∈ ss, x.first = i) ↔ (i = s.first ∨ (s.first < i ∧ i ≤ s.last ∧ ∃ t ∈ pts, f.unitStart i ≤ t ∧ t < f.noticedEnd i)) := by
  obtain ⟨h1, h2, h3, rfl⟩ := Frame.createSubspans_ok_iff.1 h
  rw [spansBetween_first, mem_sortedSet, Frame.mem_getLocVectorized h1 h3]

theorem Frame.createSubspans_exists {f : Frame} {s : Span} (pts : List Time) (h0 : 0 ≤ s.first) (h1 : s.first ≤ s.last)
    (h2 : s.last < f.n) : ∃ ss, f.createSubspans s pts = .ok ss := ⟨_, Frame.createSubspans_ok_iff.2 ⟨h0, h1, h2, rfl⟩⟩

/-- Skips of the spans made by `_create_subspans` are zero. -/
theorem spansBetween_skip (a b : Int) (ps : List Int) : ∀ s ∈ spansBetween a b ps, s.skipLeft = 0 ∧ s.skipRight = 0 := by
  induction ps generalizing a with
  | nil => simp [spansBetween]
  | cons p ps ih =>
    intro s hs
    simp only [spansBetween, List.mem_cons] at hs
    rcases hs with rfl | hs
    · exact ⟨rfl, rfl⟩
    · exact ih p s hs

/-! ### Alignment of frequencies -/

theorem isSubperiod_aligned {bu gb : Freq} (h : isSubperiod bu gb = true) : bu.factor = none ∧ gb.factor = none ∧
    ∀ o, ∃ o', gb.base.startOf o = bu.base.startOf o' := by
  unfold isSubperiod at h
  obtain ⟨bf, bd, bp⟩ := bu
  obtain ⟨gf, gd, gp⟩ := gb
  cases bf with
  | some x => simp at h
  | none =>
  cases gf with
  | some x => simp at h
  | none =>
  refine ⟨rfl, rfl, ?_⟩
  intro o
  simp only [Option.isSome_none, Bool.or_self, Bool.false_eq_true, if_false] at h
  simp only [Freq.base]
  have hD : ∀ d : Int, (∃ o', d * nsDay = Base.D.startOf o') ∧ (∃ o', d * nsDay = Base.H.startOf o') ∧
      (∃ o', d * nsDay = Base.T.startOf o') ∧ (∃ o', d * nsDay = Base.S.startOf o') := by
    intro d
    simp only [Base.startOf, nsDay, nsHour, nsMin, nsSec]
    exact ⟨⟨d, rfl⟩, ⟨d * 24, by omega⟩, ⟨d * 1440, by omega⟩, ⟨d * 86400, by omega⟩⟩
  cases gd with
  | S =>
    cases bd <;> simp at h
    exact ⟨o, rfl⟩
  | T =>
    cases bd <;> simp at h
    · exact ⟨o * 60, by simp only [Denom.base, Base.startOf, nsMin, nsSec]; omega⟩
    · exact ⟨o, rfl⟩
  | H =>
    cases bd <;> simp at h
    · exact ⟨o * 3600, by simp only [Denom.base, Base.startOf, nsHour, nsSec]; omega⟩
    · exact ⟨o * 60, by simp only [Denom.base, Base.startOf, nsHour, nsMin]; omega⟩
    · exact ⟨o, rfl⟩
  | D =>
    cases bd <;> simp at h
    · exact (hD o).2.2.2
    · exact (hD o).2.2.1
    · exact (hD o).2.1
    · exact (hD o).1
  | W s =>
    cases bd <;> simp at h
    · exact (hD _).2.2.2
    · exact (hD _).2.2.1
    · exact (hD _).2.1
    · exact (hD _).1
    · subst h; exact ⟨o, rfl⟩
  | M =>
    cases bd <;> simp at h
    · exact (hD _).2.2.2
    · exact (hD _).2.2.1
    · exact (hD _).2.1
    · exact (hD _).1
  | Q s =>
    cases bd <;> simp at h
    · exact (hD _).2.2.2
    · exact (hD _).2.2.1
    · exact (hD _).2.1
    · exact (hD _).1
    · exact ⟨_, rfl⟩
  | A s =>
    cases bd with
    | S => exact (hD _).2.2.2
    | T => exact (hD _).2.2.1
    | H => exact (hD _).2.1
    | D => exact (hD _).1
    | W s' => simp at h
    | M => exact ⟨_, rfl⟩
    | A s' => simp at h
    | min => simp at h
    | Y s' => simp at h
    | Q s' =>
      simp only [beq_iff_eq, ruleMonth] at h
      simp only [Denom.base, Base.startOf]
      have hx := (s.getD 11).isLt
      have hy := (s'.getD 11).isLt
      refine ⟨(12 * o + (((s.getD 11 : Fin 12) : Nat) + 1 : Int) % 12 - (((s'.getD 11 : Fin 12) : Nat) + 1 : Int) % 3) / 3, ?_⟩
      congr 2
      omega
  | min => simp at h
  | Y s => simp at h

/-- Accepted marker frequencies: either the base units are not multiplied and marker periods consist of whole base units,
or both frequencies have the same denomination and the multiplier of the marker is a multiple of that of the base unit. -/
theorem checkGroupby_aligned {bu gb : Freq} (h : checkGroupbyFreq bu gb = true) :
    (bu.mult = 1 ∧ ∀ o, ∃ o', gb.base.startOf o = bu.base.startOf o') ∨
    (bu.base = gb.base ∧ bu.mult ∣ gb.mult) := by
  unfold checkGroupbyFreq at h
  split at h
  · rename_i hs
    obtain ⟨h1, h2, h3⟩ := isSubperiod_aligned hs
    exact .inl ⟨by simp [Freq.mult, h1], h3⟩
  · split at h
    · simp at h
    split at h
    · simp at h
    · split at h
      · rename_i hd
        simp only [beq_iff_eq] at hd h
        exact .inr ⟨by simp [Freq.base, hd], Nat.dvd_of_mod_eq_zero h⟩
      · split at h
        · rename_i hm
          simp only [beq_iff_eq] at hm
          obtain ⟨h1, h2, h3⟩ := isSubperiod_aligned h
          exact .inl ⟨hm, h3⟩
        · simp at h

end TB
