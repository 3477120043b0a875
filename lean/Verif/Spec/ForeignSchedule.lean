import Verif.Spec.SameTimes
import Verif.Spec.Reachable
import Verif.Model.Foreign
/-! Schedules of another timeboard. -/
namespace TB
variable {L : Type}

/-- The workshifts with the same number start and end, and are referred to, at the same times on both timeboards; their labels may differ. -/
structure Timeboard.SameTimes (tb tb' : Timeboard L) : Prop where
  number : tb.timeline.len = tb'.timeline.len
  each : ∀ k, 0 ≤ k → k < tb.timeline.len → ∃ w w', Workshift.new tb k = .ok w ∧ Workshift.new tb' k = .ok w' ∧
    w.startTime tb = w'.startTime tb' ∧ w.endTime tb = w'.endTime tb' ∧ w.toTimestamp tb = w'.toTimestamp tb'

end TB
