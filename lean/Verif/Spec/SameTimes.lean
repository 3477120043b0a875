import Verif.Model.Interval
/-! Timeboards with the same workshifts, possibly made of other base units. -/
namespace TB
variable {L : Type}

/-- The workshifts with the same number have the same label, start, end and reference time on both timeboards. -/
structure Timeboard.SameWorkshifts (tb tb' : Timeboard L) : Prop where
  number : tb.timeline.len = tb'.timeline.len
  each : ∀ k, 0 ≤ k → k < tb.timeline.len → ∃ w w', Workshift.new tb k = .ok w ∧ Workshift.new tb' k = .ok w' ∧ w.label = w'.label ∧
    w.startTime tb = w'.startTime tb' ∧ w.endTime tb = w'.endTime tb' ∧ w.toTimestamp tb = w'.toTimestamp tb'

end TB
