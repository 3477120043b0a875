import Verif.Model.Interval
/-! What an amendment changes. -/
namespace TB
variable {L : Type}

/-- What changes in a sum over workshifts, of an amount `g label duration` for each one, if the workshift which contains `t` gets the label `v`:
the new amount minus the old one. Nothing changes if there is no such workshift. -/
def Timeboard.effect (tb : Timeboard L) (g : L → Int → Rat) (p : Time × L) : Rat :=
  match tb.getWorkshift p.1 none with
  | .error _ => 0
  | .ok w => match w.duration tb with
    | .error _ => 0
    | .ok n => g p.2 n - g w.label n

/-- The amendments whose keys are from `a` to `b`. -/
def amendmentsWithin (a b : Time) (items : List (Time × L)) : List (Time × L) := items.filter (fun p => decide (a ≤ p.1 ∧ p.1 ≤ b))

end TB
