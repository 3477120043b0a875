import Verif.Model.Basic
/-! Laws of the primitives of `Model/Basic.lean`. -/
namespace TB

theorem pyGet?_nonneg {α : Type} (xs : List α) {i : Int} (h : 0 ≤ i) : pyGet? xs i = xs[i.toNat]? := by
  simp [pyGet?, h]

theorem pyGet?_lt {α : Type} (xs : List α) {i : Int} (h : 0 ≤ i) (h' : i < xs.length) :
    pyGet? xs i = some (xs[i.toNat]'(by omega)) := by
  rw [pyGet?_nonneg xs h]; simp

theorem pyGet?_ge {α : Type} (xs : List α) {i : Int} (h' : (xs.length : Int) ≤ i) :
    pyGet? xs i = none := by
  rw [pyGet?_nonneg xs (by omega)]; simp; omega

theorem pyGet?_neg {α : Type} (xs : List α) {i : Int} (h : i < 0) (h' : 0 ≤ i + xs.length) :
    pyGet? xs i = some (xs[(i + xs.length).toNat]'(by omega)) := by
  have : ¬ 0 ≤ i := by omega
  simp [pyGet?, this, h']

theorem pyGet?_low {α : Type} (xs : List α) {i : Int} (h' : i + xs.length < 0) : pyGet? xs i = none := by
  have h1 : ¬ 0 ≤ i := by omega
  have h2 : ¬ 0 ≤ i + (xs.length : Int) := by omega
  simp [pyGet?, h1, h2]

theorem pyGet?_isSome_iff {α : Type} (xs : List α) (i : Int) :
    (pyGet? xs i).isSome ↔ (-(xs.length : Int) ≤ i ∧ i < xs.length) := by
  by_cases h : 0 ≤ i
  · by_cases h' : i < xs.length
    · rw [pyGet?_lt xs h h']; simp; omega
    · rw [pyGet?_ge xs (by omega)]; simp; omega
  · by_cases h' : 0 ≤ i + (xs.length : Int)
    · rw [pyGet?_neg xs (by omega) h']; simp; omega
    · rw [pyGet?_low xs (by omega)]; simp; omega

theorem pyGet?_nonneg_eq_some {α : Type} {xs : List α} {i : Int} {a : α} (h : 0 ≤ i) :
    pyGet? xs i = some a ↔ ∃ h' : i.toNat < xs.length, xs[i.toNat] = a := by
  rw [pyGet?_nonneg xs h, List.getElem?_eq_some_iff]

theorem pyGet?_map {α β : Type} (f : α → β) (xs : List α) (i : Int) :
    pyGet? (xs.map f) i = (pyGet? xs i).map f := by
  unfold pyGet?
  simp only [List.length_map, List.getElem?_map]
  repeat' split
  all_goals simp

/-! ### searchsorted -/

theorem takeWhile_length_le {α : Type} (p : α → Bool) (xs : List α) : (xs.takeWhile p).length ≤ xs.length := by
  induction xs with
  | nil => simp
  | cons x xs ih =>
    rw [List.takeWhile_cons]
    cases p x <;> simp; exact ih

theorem ssLeft_nonneg (xs : List Int) (v : Int) : 0 ≤ ssLeft xs v := by simp [ssLeft]
theorem ssRight_nonneg (xs : List Int) (v : Int) : 0 ≤ ssRight xs v := by simp [ssRight]
theorem ssLeft_le (xs : List Int) (v : Int) : ssLeft xs v ≤ xs.length := by
  simp only [ssLeft]; have := takeWhile_length_le (fun x => decide (x < v)) xs; omega
theorem ssRight_le (xs : List Int) (v : Int) : ssRight xs v ≤ xs.length := by
  simp only [ssRight]; have := takeWhile_length_le (fun x => decide (x ≤ v)) xs; omega

theorem ssLeft_cons (x : Int) (xs : List Int) (v : Int) :
    ssLeft (x :: xs) v = if x < v then ssLeft xs v + 1 else 0 := by
  simp only [ssLeft, List.takeWhile_cons]
  by_cases h : x < v <;> simp [h]

theorem ssRight_cons (x : Int) (xs : List Int) (v : Int) :
    ssRight (x :: xs) v = if x ≤ v then ssRight xs v + 1 else 0 := by
  simp only [ssRight, List.takeWhile_cons]
  by_cases h : x ≤ v <;> simp [h]

/-- On an ascending list, the elements below `v` are exactly those before `searchsorted(v, left)`. -/
theorem getElem_lt_iff {xs : List Int} (hs : xs.Pairwise (· ≤ ·)) (v : Int) (i : Nat) (hi : i < xs.length) :
    xs[i] < v ↔ (i : Int) < ssLeft xs v := by
  induction xs generalizing i with
  | nil => simp at hi
  | cons x xs ih =>
    rw [List.pairwise_cons] at hs
    rw [ssLeft_cons]
    have hn := ssLeft_nonneg xs v
    cases i with
    | zero =>
      simp only [List.getElem_cons_zero]
      by_cases h : x < v <;> simp [h]; omega
    | succ i =>
      simp only [List.getElem_cons_succ]
      rw [ih hs.2 i (by simpa using hi)]
      by_cases h : x < v
      · simp [h]
      · simp only [h, if_false]
        constructor
        · intro h'
          have := (ih hs.2 i (by simpa using hi)).2 h'
          have := hs.1 _ (List.getElem_mem (by simpa using hi : i < xs.length))
          omega
        · intro h'; omega

/-- On an ascending list, the elements not above `v` are exactly those before `searchsorted(v, right)`. -/
theorem getElem_le_iff {xs : List Int} (hs : xs.Pairwise (· ≤ ·)) (v : Int) (i : Nat) (hi : i < xs.length) :
    xs[i] ≤ v ↔ (i : Int) < ssRight xs v := by
  induction xs generalizing i with
  | nil => simp at hi
  | cons x xs ih =>
    rw [List.pairwise_cons] at hs
    rw [ssRight_cons]
    have hn := ssRight_nonneg xs v
    cases i with
    | zero =>
      simp only [List.getElem_cons_zero]
      by_cases h : x ≤ v <;> simp [h]; omega
    | succ i =>
      simp only [List.getElem_cons_succ]
      rw [ih hs.2 i (by simpa using hi)]
      by_cases h : x ≤ v
      · simp [h]
      · simp only [h, if_false]
        constructor
        · intro h'
          have := (ih hs.2 i (by simpa using hi)).2 h'
          have := hs.1 _ (List.getElem_mem (by simpa using hi : i < xs.length))
          omega
        · intro h'; omega

theorem pairwise_le_of_lt {xs : List Int} (h : xs.Pairwise (· < ·)) : xs.Pairwise (· ≤ ·) :=
  h.imp (fun h => Int.le_of_lt h)

/-- `ssRight` is determined by its property. -/
theorem ssRight_unique {xs : List Int} (hs : xs.Pairwise (· ≤ ·)) (v : Int) (k : Nat) (hk : k ≤ xs.length)
    (h1 : ∀ i (hi : i < xs.length), i < k → xs[i] ≤ v) (h2 : ∀ i (hi : i < xs.length), k ≤ i → v < xs[i]) :
    ssRight xs v = k := by
  have hle := ssRight_le xs v
  have hn := ssRight_nonneg xs v
  rcases Int.lt_trichotomy (ssRight xs v) k with h | h | h
  · have hi : (ssRight xs v).toNat < xs.length := by omega
    have := h1 _ hi (by omega)
    have := (getElem_le_iff hs v _ hi).1 this
    omega
  · exact h
  · have hi : k < xs.length := by omega
    have h3 := h2 _ hi (Nat.le_refl _)
    have h4 := (getElem_le_iff hs v k hi).2 (by omega)
    omega

theorem ssLeft_unique {xs : List Int} (hs : xs.Pairwise (· ≤ ·)) (v : Int) (k : Nat) (hk : k ≤ xs.length)
    (h1 : ∀ i (hi : i < xs.length), i < k → xs[i] < v) (h2 : ∀ i (hi : i < xs.length), k ≤ i → v ≤ xs[i]) :
    ssLeft xs v = k := by
  have hle := ssLeft_le xs v
  have hn := ssLeft_nonneg xs v
  rcases Int.lt_trichotomy (ssLeft xs v) k with h | h | h
  · have hi : (ssLeft xs v).toNat < xs.length := by omega
    have := h1 _ hi (by omega)
    have := (getElem_lt_iff hs v _ hi).1 this
    omega
  · exact h
  · have hi : k < xs.length := by omega
    have h3 := h2 _ hi (Nat.le_refl _)
    have h4 := (getElem_lt_iff hs v k hi).2 (by omega)
    omega

/-! ### sorted sets -/

theorem mem_insertUniq (x y : Int) (xs : List Int) : y ∈ insertUniq x xs ↔ y = x ∨ y ∈ xs := by
  induction xs with
  | nil => simp [insertUniq]
  | cons z zs ih =>
    simp only [insertUniq]
    split
    · simp
    · split
      · simp; intro h; simp_all
      · simp [ih]
        constructor
        · rintro (h | h | h) <;> simp [h]
        · rintro (h | h | h) <;> simp [h]

theorem pairwise_insertUniq (x : Int) {xs : List Int} (h : xs.Pairwise (· < ·)) :
    (insertUniq x xs).Pairwise (· < ·) := by
  induction xs with
  | nil => simp [insertUniq]
  | cons z zs ih =>
    rw [List.pairwise_cons] at h
    simp only [insertUniq]
    split
    · rename_i hx
      refine List.Pairwise.cons ?_ (List.Pairwise.cons h.1 h.2)
      intro a ha
      rcases List.mem_cons.1 ha with ha | ha
      · omega
      · have := h.1 a ha; omega
    · split
      · exact List.Pairwise.cons h.1 h.2
      · refine List.Pairwise.cons ?_ (ih h.2)
        intro a ha
        rcases (mem_insertUniq x a zs).1 ha with ha | ha
        · omega
        · exact h.1 a ha

theorem mem_sortedSet (y : Int) (xs : List Int) : y ∈ sortedSet xs ↔ y ∈ xs := by
  induction xs with
  | nil => simp [sortedSet]
  | cons x xs ih => simp only [sortedSet, List.foldr_cons] at ih ⊢; rw [mem_insertUniq, ih]; simp

theorem pairwise_sortedSet (xs : List Int) : (sortedSet xs).Pairwise (· < ·) := by
  induction xs with
  | nil => simp [sortedSet]
  | cons x xs ih => simp only [sortedSet, List.foldr_cons] at ih ⊢; exact pairwise_insertUniq x ih

/-- Two strictly ascending lists with the same elements are equal. -/
theorem eq_of_pairwise_lt {xs ys : List Int} (hx : xs.Pairwise (· < ·)) (hy : ys.Pairwise (· < ·))
    (h : ∀ a, a ∈ xs ↔ a ∈ ys) : xs = ys := by
  induction xs generalizing ys with
  | nil =>
    cases ys with
    | nil => rfl
    | cons y ys => have := (h y).2 (by simp); simp at this
  | cons x xs ih =>
    cases ys with
    | nil => have := (h x).1 (by simp); simp at this
    | cons y ys =>
      rw [List.pairwise_cons] at hx hy
      have hxy : x = y := by
        have h1 := (h x).1 (by simp)
        have h2 := (h y).2 (by simp)
        rcases List.mem_cons.1 h1 with h1 | h1
        · exact h1
        · rcases List.mem_cons.1 h2 with h2 | h2
          · exact h2.symm
          · have := hx.1 _ h2; have := hy.1 _ h1; omega
      subst hxy
      congr 1
      apply ih hx.2 hy.2
      intro a
      constructor
      · intro ha
        have h1 := (h a).1 (by simp [ha])
        rcases List.mem_cons.1 h1 with h1 | h1
        · have := hx.1 _ ha; omega
        · exact h1
      · intro ha
        have h1 := (h a).2 (by simp [ha])
        rcases List.mem_cons.1 h1 with h1 | h1
        · have := hy.1 _ ha; omega
        · exact h1

/-! ### sorting -/

theorem mem_insertSorted (x y : Int) (xs : List Int) : y ∈ insertSorted x xs ↔ y = x ∨ y ∈ xs := by
  induction xs with
  | nil => simp [insertSorted]
  | cons z zs ih =>
    simp only [insertSorted]
    split
    · simp
    · simp [ih]
      constructor
      · rintro (h | h | h) <;> simp [h]
      · rintro (h | h | h) <;> simp [h]

theorem pairwise_insertSorted (x : Int) {xs : List Int} (h : xs.Pairwise (· ≤ ·)) :
    (insertSorted x xs).Pairwise (· ≤ ·) := by
  induction xs with
  | nil => simp [insertSorted]
  | cons z zs ih =>
    rw [List.pairwise_cons] at h
    simp only [insertSorted]
    split
    · refine List.Pairwise.cons ?_ (List.Pairwise.cons h.1 h.2)
      intro a ha
      rcases List.mem_cons.1 ha with ha | ha
      · omega
      · have := h.1 a ha; omega
    · refine List.Pairwise.cons ?_ (ih h.2)
      intro a ha
      rcases (mem_insertSorted x a zs).1 ha with ha | ha
      · omega
      · exact h.1 a ha

theorem mem_sortList (y : Int) (xs : List Int) : y ∈ sortList xs ↔ y ∈ xs := by
  induction xs with
  | nil => simp [sortList]
  | cons x xs ih => simp only [sortList, List.foldr_cons] at ih ⊢; rw [mem_insertSorted, ih]; simp

theorem pairwise_sortList (xs : List Int) : (sortList xs).Pairwise (· ≤ ·) := by
  induction xs with
  | nil => simp [sortList]
  | cons x xs ih => simp only [sortList, List.foldr_cons] at ih ⊢; exact pairwise_insertSorted x ih

/-! ### ranges -/

theorem length_intRange (a b : Int) : (intRange a b).length = (b - a).toNat := by simp [intRange]

theorem getElem_intRange (a b : Int) (i : Nat) (h : i < (intRange a b).length) : (intRange a b)[i] = a + i := by
  simp [intRange]

theorem mem_intRange (a b x : Int) : x ∈ intRange a b ↔ a ≤ x ∧ x < b := by
  simp only [intRange, List.mem_map, List.mem_range]
  constructor
  · rintro ⟨k, hk, rfl⟩; omega
  · intro h; exact ⟨(x - a).toNat, by omega, by omega⟩

theorem pairwise_map_range {f : Nat → Int} (n : Nat) (h : ∀ i j, i < j → j < n → f i < f j) :
    ((List.range n).map f).Pairwise (· < ·) := by
  rw [List.pairwise_iff_getElem]
  intro i j hi hj hij
  simp only [List.getElem_map, List.getElem_range]
  simp at hj
  exact h i j hij hj

theorem pairwise_intRange (a b : Int) : (intRange a b).Pairwise (· < ·) := by
  unfold intRange
  apply pairwise_map_range
  intro i j h _; omega

theorem intRange_cons {a b : Int} (h : a < b) : intRange a b = a :: intRange (a + 1) b := by
  apply eq_of_pairwise_lt (pairwise_intRange _ _)
  · refine List.Pairwise.cons ?_ (pairwise_intRange _ _)
    intro x hx; rw [mem_intRange] at hx; omega
  · intro x; rw [List.mem_cons, mem_intRange, mem_intRange]; omega

theorem intRange_empty {a b : Int} (h : b ≤ a) : intRange a b = [] := by
  simp [intRange]; omega

theorem pairwise_lt_getElem {xs : List Int} (h : xs.Pairwise (· < ·)) {i j : Nat} (hij : i < j) (hj : j < xs.length) :
    xs[i]'(by omega) < xs[j] := by
  rw [List.pairwise_iff_getElem] at h
  exact h i j (by omega) hj hij

theorem pairwise_lt_getElem_iff {xs : List Int} (h : xs.Pairwise (· < ·)) {i j : Nat} (hi : i < xs.length) (hj : j < xs.length) :
    xs[i] < xs[j] ↔ i < j := by
  constructor
  · intro hlt
    rcases Nat.lt_trichotomy i j with h' | h' | h'
    · exact h'
    · subst h'; omega
    · have := pairwise_lt_getElem h h' hi; omega
  · intro h'; exact pairwise_lt_getElem h h' hj

theorem pairwise_lt_getElem_inj {xs : List Int} (h : xs.Pairwise (· < ·)) {i j : Nat} (hi : i < xs.length) (hj : j < xs.length)
    (he : xs[i] = xs[j]) : i = j := by
  rcases Nat.lt_trichotomy i j with h' | h' | h'
  · have := pairwise_lt_getElem h h' hj; omega
  · exact h'
  · have := pairwise_lt_getElem h h' hi; omega

end TB
