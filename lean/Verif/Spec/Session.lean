import Verif.Model.Session
import Verif.Spec.Intervals
/-!
# What is expected of generators and of iteration
-/
namespace TB

variable {L : Type}

/-- What the `k`-th advance of `v.workshifts(duty, schedule)` is to give: the `k`-th of the workshifts; StopIteration after the
last one; if the call is wrong, the exception, and StopIteration ever after. -/
def Interval.turn (v : Interval L) (tb : Timeboard L) (duty : Duty) (schedule : Option (Schedule L)) (k : Nat) :
    Except Err (Option (Workshift L)) :=
  match v.workshifts tb duty schedule with
  | .ok ws => .ok ws[k]?
  | .error e => if k = 0 then .error e else .ok none

/-- What an answer is: the object referred to, StopIteration or another exception. -/
def Session.sees (s : Session L) : Res → Option (Except Err (Option (Workshift L)))
  | .object n => (s.workshifts[n]?).map (fun w => .ok (some w))
  | .stop => some (.ok none)
  | .error e => some (.error e)
  | _ => none

/-- The answers to those operations which satisfy `p`. -/
def Session.answers (s : Session L) (p : Act L → Bool) (acts : List (Act L)) : List Res :=
  ((acts.zip (s.run acts).2).filter (fun x => p x.1)).map (fun x => x.2)

/-- The operation is `next(generator)` for this generator. -/
def Act.isAdvance (g : Nat) : Act L → Bool
  | .advance g' => g' == g
  | _ => false

/-- The operation is `next(v)` for this interval object. -/
def Act.isNext (i : Nat) : Act L → Bool
  | .next i' => i' == i
  | _ => false

/-- The operation starts an iteration over this interval object: `iter(v)`, `for … in v`, or `… in v`. -/
def Act.restarts (i : Nat) : Act L → Bool
  | .iter i' => i' == i
  | .contains i' _ => i' == i
  | _ => false

/-- The operation hands a Workshift object to the program. -/
def Act.givesWorkshift : Act L → Bool
  | .workshift _ => true
  | .advance _ => true
  | .next _ => true
  | _ => false

/-- The identities among answers. -/
def identities (rs : List Res) : List Nat := rs.filterMap (fun r => match r with | .object n => some n | _ => none)

end TB
