import Verif.Model.Frame
/-! Specification of a sequence of spans covering a range of base units without gaps and overlaps. -/
namespace TB

/-- The spans are non-empty, the first one begins with unit `a`, each next one begins right after the previous
one, the last one ends with unit `b`. -/
def Tiles : Int → Int → List Span → Prop
  | _, _, [] => False
  | a, b, [s] => s.first = a ∧ s.last = b ∧ a ≤ b
  | a, b, s :: t :: rest => s.first = a ∧ a ≤ s.last ∧ Tiles (s.last + 1) b (t :: rest)

end TB
