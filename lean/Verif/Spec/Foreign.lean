import Verif.Model.Foreign
/-! Intervals of two timeboards. -/
namespace TB
variable {L : Type}

/-- A moment between the start and the end of the interval. -/
def Interval.Covers (v : Interval L) (tb : Timeboard L) (t : Time) : Prop :=
  ∃ a b, v.startTime tb = .ok (some a) ∧ v.endTime tb = .ok (some b) ∧ a ≤ t ∧ t ≤ b

/-- Workshifts with the same number, if there are such on both timeboards, start and end at the same time. -/
def Timeboard.Aligned (tb tb' : Timeboard L) : Prop :=
  ∀ k w w', 0 ≤ k → Workshift.new tb k = .ok w → Workshift.new tb' k = .ok w' → w.startTime tb = w'.startTime tb' ∧ w.endTime tb = w'.endTime tb'

end TB
