/-! # What is expected of floating point rounding

Independent of the model. -/
namespace TB

/-- `fl` rounds numbers to floats of a precision of `p` binary digits: it preserves the order, treats negative numbers like
positive ones, changes a positive number by at most the part `2 ** -p` of it, and leaves every number alone that has
`p` significant digits. -/
structure Rounding (fl : Rat → Rat) (p : Nat) : Prop where
  mono : ∀ x y, x ≤ y → fl x ≤ fl y
  odd : ∀ x, fl (-x) = -fl x
  near : ∀ x, 0 ≤ x → (1 - 1 / 2 ^ p) * x ≤ fl x ∧ fl x ≤ (1 + 1 / 2 ^ p) * x
  exact : ∀ (m e : Int), m.natAbs ≤ 2 ^ p → fl ((m : Rat) * 2 ^ e) = (m : Rat) * 2 ^ e
  float : ∀ x, ∃ m e : Int, m.natAbs ≤ 2 ^ p ∧ fl x = (m : Rat) * 2 ^ e

end TB
