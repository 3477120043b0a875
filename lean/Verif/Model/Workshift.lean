import Verif.Model.Timeboard
/-!
# Workshift methods

Models `timeboard/workshift.py` 120-602.
-/
namespace TB

/-- The values of the `duty` parameter; `other` stands for any other string. -/
inductive Duty where
  | on | off | any | same | alt | other
  deriving DecidableEq, Repr

variable {L : Type}

/-- `Workshift.start_time`: workshift.py 120-123. -/
def Workshift.startTime (w : Workshift L) (tb : Timeboard L) : Except Err Time := tb.timeline.wsStart w.loc

/-- `Workshift.end_time`: workshift.py 125-128. -/
def Workshift.endTime (w : Workshift L) (tb : Timeboard L) : Except Err Time := tb.timeline.wsEnd w.loc

/-- `Workshift.duration`: workshift.py 130-133. -/
def Workshift.duration (w : Workshift L) (tb : Timeboard L) : Except Err Int := tb.timeline.wsDuration w.loc

/-- `Workshift.to_timestamp`: workshift.py 143-154. -/
def Workshift.toTimestamp (w : Workshift L) (tb : Timeboard L) : Except Err Time := tb.timeline.wsRef w.loc

/-- `Workshift.is_on_duty`: workshift.py 156-171. -/
def Workshift.isOnDuty (w : Workshift L) (tb : Timeboard L) (schedule : Option (Schedule L) := none) :
    Except Err Bool := (schedule.getD w.schedule).isOnDuty tb.timeline w.loc

/-- `Workshift.is_off_duty`: workshift.py 173-189. -/
def Workshift.isOffDuty (w : Workshift L) (tb : Timeboard L) (schedule : Option (Schedule L) := none) :
    Except Err Bool := (schedule.getD w.schedule).isOffDuty tb.timeline w.loc

/-- `Workshift._get_duty_index`: workshift.py 191-204. -/
def Workshift.dutyIndex (w : Workshift L) (tb : Timeboard L) (duty : Duty) (s : Schedule L) :
    Except Err (List Int) := do
  let isOn ← w.isOnDuty tb (some s)
  let isOff ← w.isOffDuty tb (some s)
  if duty = .on ∨ (duty = .same ∧ isOn = true) ∨ (duty = .alt ∧ isOff = true) then return s.onIdx
  else if duty = .off ∨ (duty = .same ∧ isOff = true) ∨ (duty = .alt ∧ isOn = true) then return s.offIdx
  else if duty = .any then return tb.timeline.index
  else throw .valueError

/-- `Workshift(self._tb, idx[i], schedule)` at workshift.py 343, 487. -/
def workshiftAt (tb : Timeboard L) (idx : List Int) (i : Int) (s : Schedule L) : Except Err (Workshift L) :=
  match pyGet? idx i with
  | none => .error .indexError
  | some p => Workshift.new tb p (some s)

/-- `Workshift.rollforward`: workshift.py 206-343. -/
def Workshift.rollforward (w : Workshift L) (tb : Timeboard L) (steps : Int := 0) (duty : Duty := .on)
    (schedule : Option (Schedule L) := none) : Except Err (Workshift L) := do
  let s := schedule.getD w.schedule
  let idx ← w.dutyIndex tb duty s
  let lenIdx : Int := idx.length
  let i := ssLeft idx w.loc
  if i = lenIdx ∨ i + steps < 0 ∨ i + steps ≥ lenIdx then throw .outOfBounds
  workshiftAt tb idx (i + steps) s

/-- The loop of `rollback`: workshift.py 478-480: the last position `i` (as `i + 1`) with `idx[i] <= loc`,
scanning from the end; `k` is `i + 1`. -/
def scanBack (idx : List Int) (loc : Int) : Nat → Int
  | 0 => -1
  | k + 1 => match idx[k]? with
    | some x => if x > loc then scanBack idx loc k else (k : Int)
    | none => (k : Int)

/-- `Workshift.rollback`: workshift.py 345-487. -/
def Workshift.rollback (w : Workshift L) (tb : Timeboard L) (steps : Int := 0) (duty : Duty := .on)
    (schedule : Option (Schedule L) := none) : Except Err (Workshift L) := do
  let s := schedule.getD w.schedule
  let idx ← w.dutyIndex tb duty s
  let lenIdx : Int := idx.length
  let i := scanBack idx w.loc idx.length
  if i = -1 ∨ i - steps < 0 ∨ i - steps ≥ lenIdx then throw .outOfBounds
  workshiftAt tb idx (i - steps) s

/-- `Workshift.__add__` with an integer: workshift.py 588-593. -/
def Workshift.add (w : Workshift L) (tb : Timeboard L) (n : Int) : Except Err (Workshift L) :=
  w.rollforward tb n .on

/-- `Workshift.__sub__` with an integer: workshift.py 595-602. -/
def Workshift.sub (w : Workshift L) (tb : Timeboard L) (n : Int) : Except Err (Workshift L) :=
  w.rollback tb n .on

/-- `Workshift.worktime`: workshift.py 489-586.  `num` tells whether a label is a number, and which one
(`label + 0` raises TypeError when it is not).  Simplification: numbers are exact rationals; NaN is treated in `Model/LabelSums.lean`. -/
def Workshift.worktime (w : Workshift L) (tb : Timeboard L) (num : L → Option Rat) (duty : Duty := .on)
    (schedule : Option (Schedule L) := none) : Except Err Rat := do
  let s := schedule.getD w.schedule
  let isOn ← w.isOnDuty tb (some s)
  let isOff ← w.isOffDuty tb (some s)
  let flag ← match duty with
    | .on => pure isOn
    | .off => pure isOff
    | .any => pure true
    | _ => throw .valueError
  if flag then
    if tb.worktimeSource = "labels" then
      match num w.label with
      | none => throw .typeError
      | some q => return q
    else if tb.worktimeSource = "duration" then
      let d ← w.duration tb
      return (d : Rat)
    else throw .runtimeError
  else return 0

end TB
