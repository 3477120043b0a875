import Verif.Spec.Rota
import Verif.Props.AmendCounts
/-! Sums over consecutive turns. -/
namespace TB
variable {L : Type}

/-- The sum of `n` consecutive amounts of an endless repetition. -/
def turnSum (xs : List L) (f : L → Rat) (p n : Nat) : Rat := ((List.range n).map (fun i => ((cyclic xs (p + i)).map f).getD 0)).sum

theorem turnSum_zero (xs : List L) (f : L → Rat) (p : Nat) : turnSum xs f p 0 = 0 := rfl

theorem rat_sum_append (a b : List Rat) : (a ++ b).sum = a.sum + b.sum := by
  induction a with
  | nil => simp only [List.nil_append, List.sum_nil]; grind
  | cons x a ih => simp only [List.cons_append, List.sum_cons, ih]; grind

theorem turnSum_succ (xs : List L) (f : L → Rat) (p n : Nat) : turnSum xs f p (n + 1) = turnSum xs f p n + ((cyclic xs (p + n)).map f).getD 0 := by
  unfold turnSum
  rw [List.range_succ, List.map_append, rat_sum_append]
  simp only [List.map_cons, List.map_nil, List.sum_cons, List.sum_nil]
  grind

theorem turnSum_add (xs : List L) (f : L → Rat) (p a b : Nat) : turnSum xs f p (a + b) = turnSum xs f p a + turnSum xs f (p + a) b := by
  induction b with
  | zero => rw [Nat.add_zero, turnSum_zero]; grind
  | succ b ih => rw [← Nat.add_assoc, turnSum_succ, ih, turnSum_succ, Nat.add_assoc]; grind

theorem cyclic_period (xs : List L) (p : Nat) : cyclic xs (p + xs.length) = cyclic xs p := by
  unfold cyclic; rw [Nat.add_mod_right]

theorem cyclic_periods (xs : List L) (p j : Nat) : cyclic xs (p + j * xs.length) = cyclic xs p := by
  unfold cyclic; rw [Nat.add_mul_mod_self_right]

theorem turnSum_shift (xs : List L) (f : L → Rat) (p : Nat) : turnSum xs f p xs.length = turnSum xs f 0 xs.length := by
  induction p with
  | zero => rfl
  | succ p ih =>
    have h1 := turnSum_succ xs f p xs.length
    have h2 := turnSum_add xs f p 1 xs.length
    rw [Nat.add_comm 1] at h2
    have h3 := turnSum_succ xs f p 0
    rw [turnSum_zero, Nat.zero_add] at h3
    rw [cyclic_period] at h1
    rw [Nat.add_zero] at h3
    grind

theorem turnSum_first (xs : List L) (f : L → Rat) : turnSum xs f 0 xs.length = (xs.map f).sum := by
  unfold turnSum
  congr 1
  apply List.ext_getElem?
  intro i
  rw [List.getElem?_map, List.getElem?_map]
  by_cases h : i < xs.length
  · rw [List.getElem?_range h]
    simp only [Option.map_some, Nat.zero_add]
    unfold cyclic
    rw [Nat.mod_eq_of_lt h, List.getElem?_eq_getElem h]
    rfl
  · rw [List.getElem?_eq_none (by simp; omega), List.getElem?_eq_none (by omega)]; rfl

theorem turnSum_turns (xs : List L) (f : L → Rat) (p m : Nat) : turnSum xs f p (m * xs.length) = m * (xs.map f).sum := by
  induction m with
  | zero => rw [Nat.zero_mul, turnSum_zero]; simp
  | succ m ih =>
    rw [Nat.succ_mul, turnSum_add, ih, turnSum_shift, turnSum_first, Rat.natCast_add]
    grind

theorem turnSum_nonneg (xs : List L) {f : L → Rat} (hf : ∀ l, 0 ≤ f l) (p n : Nat) : 0 ≤ turnSum xs f p n := by
  induction n with
  | zero => rw [turnSum_zero]; grind
  | succ n ih =>
    rw [turnSum_succ]
    cases cyclic xs (p + n) with
    | none => simp only [Option.map_none, Option.getD_none]; grind
    | some l => have := hf l; simp only [Option.map_some, Option.getD_some]; grind

theorem turnSum_mono (xs : List L) {f : L → Rat} (hf : ∀ l, 0 ≤ f l) (p : Nat) {m n : Nat} (h : m ≤ n) : turnSum xs f p m ≤ turnSum xs f p n := by
  obtain ⟨d, rfl⟩ := Nat.exists_eq_add_of_le h
  rw [turnSum_add]
  have := turnSum_nonneg xs hf (p + m) d
  grind

theorem turnSum_bounds (xs : List L) {f : L → Rat} (hf : ∀ l, 0 ≤ f l) (p n : Nat) (hx : xs ≠ []) :
    ((n / xs.length : Nat) : Rat) * (xs.map f).sum ≤ turnSum xs f p n ∧ turnSum xs f p n ≤ ((n / xs.length : Nat) + 1 : Rat) * (xs.map f).sum := by
  have hl : 0 < xs.length := List.length_pos_iff.2 hx
  have h1 := turnSum_mono xs hf p (Nat.div_mul_le_self n xs.length)
  have h2 := turnSum_mono xs hf p (m := n) (n := (n / xs.length + 1) * xs.length) (Nat.le_of_lt (by
    have := Nat.div_add_mod n xs.length
    have := Nat.mod_lt n hl
    rw [Nat.succ_mul, Nat.mul_comm]; omega))
  rw [turnSum_turns] at h1 h2
  rw [Rat.natCast_add] at h2
  exact ⟨h1, h2⟩

theorem intRange_eq_range {lo hi : Int} (n : Nat) (h : (hi - lo).toNat = n) : intRange lo hi = (List.range n).map (fun (i : Nat) => lo + (i : Int)) := by
  unfold intRange
  rw [h]

/-- The label at a position of a rota. -/
theorem Timeboard.Rota.label {tb : Timeboard L} {xs : List L} {p : Nat} (h : tb.Rota xs p) (hv : tb.Valid) {k : Nat} (hk : (k : Int) < tb.timeline.len) :
    ∃ l, tb.timeline.label k = .ok l ∧ cyclic xs (p + k) = some l := by
  obtain ⟨w, h1, h2⟩ := h.2 k hk
  exact ⟨w.label, Workshift.new_label h1, h2⟩

theorem Timeboard.Rota.sum {tb : Timeboard L} {xs : List L} {p : Nat} (h : tb.Rota xs p) (hv : tb.Valid) (f : L → Rat) {lo hi : Int} {n : Nat} (h0 : 0 ≤ lo)
    (hn : (hi + 1 - lo).toNat = n) (h1 : hi < tb.timeline.len) :
    ((intRange lo (hi + 1)).map (tb.amount (fun l _ => f l))).sum = turnSum xs f (p + lo.toNat) n := by
  rw [intRange_eq_range n hn, List.map_map]
  unfold turnSum
  congr 1
  apply List.map_congr_left
  intro i hi'
  rw [List.mem_range] at hi'
  obtain ⟨l, h2, h3⟩ := h.label hv (k := lo.toNat + i) (by omega)
  simp only [Function.comp]
  unfold Timeboard.amount
  rw [show (lo + (i : Int)) = ((lo.toNat + i : Nat) : Int) by omega, h2, Nat.add_assoc, h3]
  rfl

end TB
