import Verif.Spec.Reachable
/-! Duty of workshifts in terms of the public methods. -/
namespace TB
variable {L : Type}

/-- The workshift has the duty under the schedule. -/
def Workshift.HasDuty (w : Workshift L) (tb : Timeboard L) (s : Schedule L) : Duty → Prop
  | .on => w.isOnDuty tb (some s) = .ok true
  | .off => w.isOffDuty tb (some s) = .ok true
  | .any => True
  | _ => False

/-- `k` is the position of a workshift which has the duty under the schedule. -/
def Timeboard.DutyAt (tb : Timeboard L) (s : Schedule L) (duty : Duty) (k : Int) : Prop :=
  0 ≤ k ∧ k < tb.timeline.len ∧ ∃ w, Workshift.new tb k (some s) = .ok w ∧ w.HasDuty tb s duty

/-- `ws` are the workshifts at the positions `lo..hi` which have the duty, in ascending order. -/
def Timeboard.ListsDuty (tb : Timeboard L) (s : Schedule L) (duty : Duty) (lo hi : Int) (ws : List (Workshift L)) : Prop :=
  (ws.map (fun w => w.loc)).Pairwise (· < ·) ∧
  (∀ w ∈ ws, Workshift.new tb w.loc (some s) = .ok w) ∧
  (∀ k, (∃ w ∈ ws, w.loc = k) ↔ (lo ≤ k ∧ k ≤ hi ∧ tb.DutyAt s duty k))

end TB
