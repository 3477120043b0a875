import Verif.Spec.Marks
/-! Specification of the parts of calendar periods which fall outside a span. -/
namespace TB

/-- The first span has `x` skipped units on the left, the last span has `y` skipped units on the right; there are none elsewhere. -/
def Dangles (x y : Int) (ss : List Span) : Prop :=
  ss.map Span.skipLeft = x :: List.replicate (ss.length - 1) 0 ∧ ss.map Span.skipRight = List.replicate (ss.length - 1) 0 ++ [y]

/-- The mark is the latest one at or before the time. -/
def Marker.Latest (bu : Freq) (m : Marker) (t u : Time) : Prop := m.Mark bu u ∧ u ≤ t ∧ ∀ u', m.Mark bu u' → u' ≤ t → u' ≤ u

/-- The mark is the earliest one after the time. -/
def Marker.Earliest (bu : Freq) (m : Marker) (t u : Time) : Prop := m.Mark bu u ∧ t < u ∧ ∀ u', m.Mark bu u' → t < u' → u ≤ u'

end TB
