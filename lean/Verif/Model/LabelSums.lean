import Verif.Model.Interval
/-!
# Sums of labels of any kind

`Model/Interval.lean` and `Model/Workshift.lean` take a label to be a number or not, and add numbers up.  This module repeats
`_sum_labels` and both methods `worktime` for labels which may be anything: numbers, strings, None (the label of a workshift which nothing
has labelled: `default_label` is None by default, timeboard.py 164-170), NaN, or objects which cannot be added to anything.
-/
namespace TB
variable {L : Type}

/-- The Python value a label is.  Simplification: of other kinds only objects without `+`; booleans are the numbers 0 and 1. -/
inductive Val where
  | number (q : Rat)
  | text (s : String)
  | nothing
  | nan
  | thing
  deriving DecidableEq

/-- Python's `x + y`. -/
def Val.add : Val → Val → Except Err Val
  | .number a, .number b => .ok (.number (a + b))
  | .number _, .nan => .ok .nan
  | .nan, .number _ => .ok .nan
  | .nan, .nan => .ok .nan
  | .text a, .text b => .ok (.text (a ++ b))
  | _, _ => .error .typeError

/-- `bool(x)`, the selector in effect by default: timeboard.py 256-257.  Simplification: other objects are true. -/
def Val.truth : Val → Bool
  | .number q => decide (q ≠ 0)
  | .text s => decide (s ≠ "")
  | .nothing => false
  | .nan => true
  | .thing => true

/-- `Series.sum()` leaves out missing values (`skipna=True`): those of an array of objects are replaced by 0. -/
def Val.fill : Val → Val
  | .nothing => .number 0
  | .nan => .number 0
  | v => v

/-- The elements are added one after the other. -/
def addAll (acc : Val) : List Val → Except Err Val
  | [] => .ok acc
  | v :: vs => match acc.add v with
    | .error e => .error e
    | .ok x => addAll x vs

/-- `Series.sum()` of an array of objects. -/
def seriesSum (vs : List Val) : Except Err Val :=
  match vs.map Val.fill with
  | [] => .ok (.number 0)
  | v :: vs => addAll v vs

/-- `Interval._sum_labels`: interval.py 830-880.  `kind` tells which value a label is. -/
def Interval.sumAny (v : Interval L) (tb : Timeboard L) (kind : L → Val) (duty : Duty) (schedule : Option (Schedule L)) : Except Err Val :=
  match v.dutyIdx tb duty (schedule.getD v.schedule) with
  | .error e => .error e
  | .ok (_, none) => .ok (.number 0)
  | .ok (idx, some (a, b)) => match (slice idx a b).mapM (fun i => tb.timeline.label i) with
    | .error e => .error e
    | .ok ls => seriesSum (ls.map kind)

/-- `Interval.worktime`: interval.py 935-1013; void: 1084-1085. -/
def Interval.worktimeAny (v : Interval L) (tb : Timeboard L) (kind : L → Val) (duty : Duty := .on)
    (schedule : Option (Schedule L) := none) : Except Err Val :=
  if v.isVoid then .ok (.number 0)
  else if tb.worktimeSource = "labels" then
    match v.sumAny tb kind duty schedule with
    | .error e => .error e
    | .ok result => match result.add (.number 0) with
      | .error e => .error e
      | .ok _ => .ok result
  else if tb.worktimeSource = "duration" then (v.totalDuration tb duty schedule).map (fun d : Int => .number (d : Rat))
  else .error .runtimeError

/-- `Workshift.worktime`: workshift.py 489-586. -/
def Workshift.worktimeAny (w : Workshift L) (tb : Timeboard L) (kind : L → Val) (duty : Duty := .on)
    (schedule : Option (Schedule L) := none) : Except Err Val := do
  let s := schedule.getD w.schedule
  let isOn ← w.isOnDuty tb (some s)
  let isOff ← w.isOffDuty tb (some s)
  let flag ← match duty with
    | .on => pure isOn
    | .off => pure isOff
    | .any => pure true
    | _ => throw .valueError
  if flag then
    if tb.worktimeSource = "labels" then
      match (kind w.label).add (.number 0) with
      | .error e => throw e
      | .ok _ => return kind w.label
    else if tb.worktimeSource = "duration" then
      let d ← w.duration tb
      return .number (d : Rat)
    else throw .runtimeError
  else return .number 0

end TB
