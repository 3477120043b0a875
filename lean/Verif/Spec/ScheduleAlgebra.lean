import Verif.Spec.Duty
/-! Schedules made of two others (C124). -/
namespace TB
variable {L : Type}

/-- A workshift is on duty under `e` if it is on duty under `s` or under `t`. -/
def Timeboard.Either (tb : Timeboard L) (e s t : Schedule L) : Prop := ∀ k, tb.DutyAt e .on k ↔ (tb.DutyAt s .on k ∨ tb.DutyAt t .on k)

/-- A workshift is on duty under `b` if it is on duty under both `s` and `t`. -/
def Timeboard.Both (tb : Timeboard L) (b s t : Schedule L) : Prop := ∀ k, tb.DutyAt b .on k ↔ (tb.DutyAt s .on k ∧ tb.DutyAt t .on k)

/-- The better of two outcomes: of two workshifts that which is chosen by `pick`, of a workshift and an error the workshift. -/
def better (pick : Int → Int → Int) : Except Err Int → Except Err Int → Except Err Int
  | .ok x, .ok y => .ok (pick x y)
  | .ok x, .error _ => .ok x
  | .error _, .ok y => .ok y
  | .error e, .error _ => .error e

end TB
