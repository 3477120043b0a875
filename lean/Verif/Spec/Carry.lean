import Verif.Model.Carry
import Verif.Spec.Points
import Verif.Spec.Foreign
/-! What it means to carry a workshift over to another timeboard. -/
namespace TB
variable {L K : Type}

/-- `w` is a workshift of the timeboard (under any schedule) which starts at `a` and ends at `b`. -/
def Timeboard.Lasts (tb : Timeboard L) (w : Workshift L) (a b : Time) : Prop :=
  0 ≤ w.loc ∧ (∃ s, Workshift.new tb w.loc s = .ok w) ∧ w.startTime tb = .ok a ∧ w.endTime tb = .ok b

end TB
