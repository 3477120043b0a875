import Verif.Lemmas.Amend
import Verif.Spec.Reachable
/-! Laws of schedules and of indices of workshifts by duty. -/
namespace TB
set_option linter.unusedSectionVars false
variable {L : Type}

theorem mem_nonzeroBy (sel : L → Bool) (ls : List L) : ∀ (i x : Int),
    x ∈ nonzeroBy sel ls i ↔ ∃ (k : Nat) (h : k < ls.length), x = i + k ∧ sel ls[k] = true := by
  induction ls with
  | nil => intro i x; simp [nonzeroBy]
  | cons l ls ih =>
    intro i x
    have key : x ∈ nonzeroBy sel ls (i + 1) ↔ ∃ (k : Nat) (h : k + 1 < (l :: ls).length), x = i + (k + 1 : Nat) ∧ sel (l :: ls)[k + 1] = true := by
      rw [ih]
      constructor
      · rintro ⟨k, h, h1, h2⟩; exact ⟨k, by simpa using h, by omega, by simpa using h2⟩
      · rintro ⟨k, h, h1, h2⟩; exact ⟨k, by simpa using h, by omega, by simpa using h2⟩
    unfold nonzeroBy
    by_cases hs : sel l = true
    · rw [if_pos hs, List.mem_cons, key]
      constructor
      · rintro (h | ⟨k, h, h1, h2⟩)
        · exact ⟨0, by simp, by omega, by simpa using hs⟩
        · exact ⟨k + 1, h, h1, h2⟩
      · rintro ⟨k, h, h1, h2⟩
        cases k with
        | zero => left; simpa using h1
        | succ k => right; exact ⟨k, h, h1, h2⟩
    · rw [if_neg hs, key]
      constructor
      · rintro ⟨k, h, h1, h2⟩; exact ⟨k + 1, h, h1, h2⟩
      · rintro ⟨k, h, h1, h2⟩
        cases k with
        | zero => exact absurd (by simpa using h2) hs
        | succ k => exact ⟨k, h, h1, h2⟩

theorem pairwise_nonzeroBy (sel : L → Bool) (ls : List L) : ∀ i : Int, (nonzeroBy sel ls i).Pairwise (· < ·) := by
  induction ls with
  | nil => intro i; simp [nonzeroBy]
  | cons l ls ih =>
    intro i
    unfold nonzeroBy
    split
    · refine List.Pairwise.cons ?_ (ih _)
      intro x hx
      obtain ⟨k, _, h, _⟩ := (mem_nonzeroBy sel ls _ x).1 hx
      omega
    · exact ih _

/-! ### the interval's part of an index -/

theorem scanUp_eq (lo : Int) (idx : List Int) : ∀ k : Nat, (scanUp lo idx k : Int) = k + ssLeft idx lo := by
  induction idx with
  | nil => intro k; simp [scanUp, ssLeft]
  | cons x xs ih =>
    intro k
    rw [ssLeft_cons]
    unfold scanUp
    split
    · rw [ih]; omega
    · omega

theorem scanDown_spec {idx : List Int} (hs : idx.Pairwise (· < ·)) (hi : Int) (left : Nat) : ∀ k : Nat, k ≤ idx.length →
    (∀ i (h : i < idx.length), k ≤ i → hi < idx[i]) →
    scanDown idx hi left k = max (ssRight idx hi - 1) (min ((left : Int) - 1) ((k : Int) - 1)) := by
  intro k
  have hle := ssRight_le idx hi
  have hnn := ssRight_nonneg idx hi
  have hge : ∀ i (h : i < idx.length), idx[i] ≤ hi ↔ (i : Int) < ssRight idx hi := getElem_le_iff (pairwise_le_of_lt hs) hi
  induction k with
  | zero =>
    intro _ h2
    simp only [scanDown]
    have : ssRight idx hi = 0 := by
      rcases Nat.eq_zero_or_pos idx.length with h | h
      · omega
      · have h3 := h2 0 h (by omega)
        have h4 := hge 0 h
        omega
    omega
  | succ k ih =>
    intro h1 h2
    have hk : k < idx.length := by omega
    have h4 := hge k hk
    have hub : ssRight idx hi ≤ k + 1 := by
      rcases Int.lt_or_le (k + 1 : Int) (ssRight idx hi) with h | h
      · have h5 : k + 1 < idx.length := by omega
        have h6 := h2 (k + 1) h5 (by omega)
        have h7 := (hge (k + 1) h5).2 (by omega)
        omega
      · exact h
    unfold scanDown
    by_cases hg : k ≥ left
    · rw [if_pos hg, List.getElem?_eq_getElem hk]
      simp only
      by_cases hx : idx[k] > hi
      · rw [if_pos hx, ih (by omega) (by
          intro i hi' hki
          rcases Nat.lt_or_ge k i with h | h
          · exact h2 i hi' (by omega)
          · have : i = k := by omega
            subst this; exact hx)]
        omega
      · rw [if_neg hx]
        have := h4.1 (by omega)
        omega
    · rw [if_neg hg]; omega

/-- What `_find_my_bounds_in_idx` and the slice by the bounds give: the elements of the index within the
interval. -/
theorem findBounds_spec {v : Interval L} {idx : List Int} (hs : idx.Pairwise (· < ·)) (hv : v.lo ≤ v.hi) :
    (v.findBounds idx = none ∧ idx.filter (fun x => decide (v.lo ≤ x) && decide (x ≤ v.hi)) = []) ∨
    (∃ a b : Int, v.findBounds idx = some (a, b) ∧ 0 ≤ a ∧ a ≤ b ∧ b < idx.length ∧
      slice idx a b = idx.filter (fun x => decide (v.lo ≤ x) && decide (x ≤ v.hi))) := by
  have hup := scanUp_eq v.lo idx 0
  have hle := pairwise_le_of_lt hs
  have hl := getElem_lt_iff hle v.lo
  have hr := getElem_le_iff hle v.hi
  have hl1 := ssLeft_le idx v.lo
  have hl0 := ssLeft_nonneg idx v.lo
  have hr1 := ssRight_le idx v.hi
  have hr0 := ssRight_nonneg idx v.hi
  have hmono : ssLeft idx v.lo ≤ ssRight idx v.hi := by
    rcases Int.lt_or_le (ssRight idx v.hi) (ssLeft idx v.lo) with h | h
    · have hlt : (ssRight idx v.hi).toNat < idx.length := by omega
      have h1 := (hl _ hlt).2 (by omega)
      have h2 := hr _ hlt
      omega
    · exact h
  have hdown := scanDown_spec hs v.hi (scanUp v.lo idx 0) idx.length (by omega) (fun i h h' => by omega)
  have hmem : ∀ i (h : i < idx.length), (v.lo ≤ idx[i] ∧ idx[i] ≤ v.hi) ↔ (ssLeft idx v.lo ≤ i ∧ (i : Int) < ssRight idx v.hi) := by
    intro i h
    have h1 := hl i h; have h2 := hr i h; omega
  unfold Interval.findBounds
  simp only
  by_cases he : ssLeft idx v.lo = ssRight idx v.hi
  · left
    constructor
    · split
      · rfl
      · rw [if_pos (by omega)]
    · rw [List.filter_eq_nil_iff]
      intro x hx
      obtain ⟨i, hi, rfl⟩ := List.getElem_of_mem hx
      have := hmem i hi
      simp; omega
  · right
    rw [if_neg (by omega), if_neg (by omega)]
    refine ⟨_, _, rfl, by omega, by omega, by omega, ?_⟩
    unfold slice
    apply eq_of_pairwise_lt
    · exact (hs.sublist (List.take_sublist _ _)).sublist (List.drop_sublist _ _)
    · exact hs.filter _
    · intro x
      rw [List.mem_filter]
      rw [List.mem_iff_getElem]
      constructor
      · rintro ⟨i, hi, rfl⟩
        simp only [List.getElem_drop, List.getElem_take]
        simp only [List.length_drop, List.length_take] at hi
        have := (hmem ((scanUp v.lo idx 0 : Int).toNat + i) (by omega)).2 (by omega)
        exact ⟨List.getElem_mem _, by simp only [Bool.and_eq_true, decide_eq_true_eq]; exact this⟩
      · rintro ⟨hx, hp⟩
        obtain ⟨i, hi, rfl⟩ := List.getElem_of_mem hx
        simp only [Bool.and_eq_true, decide_eq_true_eq] at hp
        have := (hmem i hi).1 hp
        refine ⟨i - (scanUp v.lo idx 0 : Int).toNat, ?_, ?_⟩
        · simp only [List.length_drop, List.length_take]; omega
        · simp only [List.getElem_drop, List.getElem_take]
          congr 1; omega

theorem length_slice {idx : List Int} {a b : Int} (h0 : 0 ≤ a) (h1 : a ≤ b) (h2 : b < idx.length) :
    ((slice idx a b).length : Int) = b - a + 1 := by
  unfold slice; simp only [List.length_drop, List.length_take]; omega

theorem getElem_slice {idx : List Int} {a b : Int} (i : Nat)
    (hi : i < (slice idx a b).length) : ∃ h : a.toNat + i < idx.length, (slice idx a b)[i] = idx[a.toNat + i] := by
  unfold slice at hi ⊢
  simp only [List.length_drop, List.length_take] at hi
  exact ⟨by omega, by simp⟩

theorem slice_intRange {n lo hi : Int} (h0 : 0 ≤ lo) (h1 : lo ≤ hi) (h2 : hi < n) :
    slice (intRange 0 n) lo hi = intRange lo (hi + 1) := by
  apply List.ext_getElem
  · unfold slice; simp only [List.length_drop, List.length_take, length_intRange]; omega
  · intro i hi1 hi2
    obtain ⟨h, e⟩ := getElem_slice (idx := intRange 0 n) i hi1
    rw [e, getElem_intRange, getElem_intRange]
    omega

end TB
