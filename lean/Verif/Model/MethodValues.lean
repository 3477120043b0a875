import Verif.Model.Interval
/-!
# Arguments of any kind given to methods of workshifts and intervals

`Model/Workshift.lean` and `Model/Interval.lean` take integers, duties and schedules; this module models what the methods do with other values (Python 3).  Unlike
the constructors (`Model/Values.lean`), the methods do not check their arguments: what is raised depends on the first use of the value.
Left out: values with an arithmetic or a comparison of their own (arrays, lists as `steps`, points in time).
-/
namespace TB
variable {L : Type}

/-- A value given as `duty`: a string, another value which can be looked up in a dictionary (None, a number, a tuple), a value which cannot (a list, a set, a dictionary). -/
inductive DutyValue where
  | word (s : String)
  | hashable
  | unhashable

/-- The duty meant; `other` for all values which are equal to none of the strings compared to. -/
def DutyValue.duty : DutyValue → Duty
  | .word s =>
    if s = "on" then .on else if s = "off" then .off else if s = "any" then .any else if s = "same" then .same else if s = "alt" then .alt else .other
  | _ => .other

/-- A value given as `steps` or `n`: an integer, a boolean, a finite float (exact), an infinite one, NaN, anything which cannot be added to a number (None, a string). -/
inductive StepsValue where
  | int (n : Int)
  | bool (b : Bool)
  | float (q : Rat)
  | infinite (positive : Bool)
  | nan
  | other

/-- A value given as `schedule`. -/
inductive ScheduleValue (L : Type) where
  | none
  | schedule (s : Schedule L)
  | other

/-- `if schedule is None: schedule = self.schedule`; another value has no attributes of schedules, and the first use of them raises AttributeError. -/
def ScheduleValue.get (own : Schedule L) : ScheduleValue L → Except Err (Schedule L)
  | .none => .ok own
  | .schedule s => .ok s
  | .other => .error .attributeError

/-- A value given as the other interval.  `workshift`: has an attribute `_loc` which is a number. -/
inductive OtherValue (L : Type) where
  | interval (v : Interval L)
  | workshift
  | other

/-- `other._loc[0]`: interval.py 540. -/
def OtherValue.get : OtherValue L → Except Err (Interval L)
  | .interval v => .ok v
  | .workshift => .error .typeError
  | .other => .error .attributeError

/-- `Workshift.is_on_duty`: workshift.py 156-171. -/
def Workshift.isOnDutyV (w : Workshift L) (tb : Timeboard L) (schedule : ScheduleValue L) : Except Err Bool :=
  match schedule.get w.schedule with
  | .error e => .error e
  | .ok s => w.isOnDuty tb (some s)

/-- `Workshift.is_off_duty`: workshift.py 173-189. -/
def Workshift.isOffDutyV (w : Workshift L) (tb : Timeboard L) (schedule : ScheduleValue L) : Except Err Bool :=
  match schedule.get w.schedule with
  | .error e => .error e
  | .ok s => w.isOffDuty tb (some s)

/-- `Workshift.rollforward`: workshift.py 328-343.  `i == len_idx` comes first; then `i + steps` is compared.  An index which is a float (or NaN, all comparisons
with which are False) is IndexError. -/
def Workshift.rollforwardV (w : Workshift L) (tb : Timeboard L) (steps : StepsValue) (duty : DutyValue) (schedule : ScheduleValue L) :
    Except Err (Workshift L) :=
  match schedule.get w.schedule with
  | .error e => .error e
  | .ok s => match w.dutyIndex tb duty.duty s with
    | .error e => .error e
    | .ok idx =>
      let lenIdx : Int := idx.length
      let i : Int := ssLeft idx w.loc
      if i = lenIdx then .error .outOfBounds
      else match steps with
        | .int n => if i + n < 0 ∨ i + n ≥ lenIdx then .error .outOfBounds else workshiftAt tb idx (i + n) s
        | .bool b => if i + b.toInt < 0 ∨ i + b.toInt ≥ lenIdx then .error .outOfBounds else workshiftAt tb idx (i + b.toInt) s
        | .float q => if (i : Rat) + q < 0 ∨ (i : Rat) + q ≥ (lenIdx : Rat) then .error .outOfBounds else .error .indexError
        | .infinite _ => .error .outOfBounds
        | .nan => .error .indexError
        | .other => .error .typeError

/-- `Workshift.rollback`: workshift.py 470-487. -/
def Workshift.rollbackV (w : Workshift L) (tb : Timeboard L) (steps : StepsValue) (duty : DutyValue) (schedule : ScheduleValue L) :
    Except Err (Workshift L) :=
  match schedule.get w.schedule with
  | .error e => .error e
  | .ok s => match w.dutyIndex tb duty.duty s with
    | .error e => .error e
    | .ok idx =>
      let lenIdx : Int := idx.length
      let i := scanBack idx w.loc idx.length
      if i = -1 then .error .outOfBounds
      else match steps with
        | .int n => if i - n < 0 ∨ i - n ≥ lenIdx then .error .outOfBounds else workshiftAt tb idx (i - n) s
        | .bool b => if i - b.toInt < 0 ∨ i - b.toInt ≥ lenIdx then .error .outOfBounds else workshiftAt tb idx (i - b.toInt) s
        | .float q => if (i : Rat) - q < 0 ∨ (i : Rat) - q ≥ (lenIdx : Rat) then .error .outOfBounds else .error .indexError
        | .infinite _ => .error .outOfBounds
        | .nan => .error .indexError
        | .other => .error .typeError

/-- `Workshift.worktime`: workshift.py 562-586: the flags are found under the schedule, then `duty` is looked up in a dictionary. -/
def Workshift.worktimeV (w : Workshift L) (tb : Timeboard L) (num : L → Option Rat) (duty : DutyValue) (schedule : ScheduleValue L) : Except Err Rat :=
  match schedule.get w.schedule with
  | .error e => .error e
  | .ok s => match duty with
    | .unhashable => match w.isOnDuty tb (some s), w.isOffDuty tb (some s) with
      | .error e, _ => .error e
      | _, .error e => .error e
      | _, _ => .error .typeError
    | d => w.worktime tb num d.duty (some s)

/-- `Interval._get_duty_idx`: interval.py 250-265, with the line `schedule = self.schedule` of its callers: the indexes of the schedule are taken first, then `duty` is looked
up in a dictionary. -/
def Interval.dutyIdxV (v : Interval L) (tb : Timeboard L) (duty : DutyValue) (schedule : ScheduleValue L) :
    Except Err (Schedule L × List Int × Option (Int × Int)) :=
  match schedule.get v.schedule with
  | .error e => .error e
  | .ok s => match duty with
    | .unhashable => .error .typeError
    | d => match v.dutyIdx tb d.duty s with
      | .error e => .error e
      | .ok (idx, b) => .ok (s, idx, b)

/-- `list(interval.workshifts(duty, schedule))`: interval.py 267-314; void: 1058-1060. -/
def Interval.workshiftsV (v : Interval L) (tb : Timeboard L) (duty : DutyValue) (schedule : ScheduleValue L) : Except Err (List (Workshift L)) :=
  if v.isVoid then .ok []
  else match v.dutyIdxV tb duty schedule with
    | .error e => .error e
    | .ok (_, _, none) => .ok []
    | .ok (s, idx, some (a, b)) => (slice idx a b).mapM (fun i => Workshift.new tb i (some s))

/-- `Interval.nth`: interval.py 372-392; void: 1062-1065.  `n >= 0` is TypeError for values which are not numbers and False for NaN. -/
def Interval.nthV (v : Interval L) (tb : Timeboard L) (n : StepsValue) (duty : DutyValue) (schedule : ScheduleValue L) : Except Err (Workshift L) :=
  if v.isVoid then .error .outOfBounds
  else match v.dutyIdxV tb duty schedule with
    | .error e => .error e
    | .ok (_, _, none) => .error .outOfBounds
    | .ok (s, idx, some (a, b)) =>
      let at_ (m : Int) := let i := if m ≥ 0 then a + m else b + m + 1
        if i < a ∨ i > b then .error .outOfBounds else workshiftAt tb idx i s
      match n with
      | .int m => at_ m
      | .bool x => at_ x.toInt
      | .float q => let i : Rat := if q ≥ 0 then (a : Rat) + q else (b : Rat) + q + 1
        if i < (a : Rat) ∨ i > (b : Rat) then .error .outOfBounds else .error .indexError
      | .infinite _ => .error .outOfBounds
      | .nan => .error .indexError
      | .other => .error .typeError

/-- `Interval.count`: interval.py 464-474; void: 1067-1068. -/
def Interval.countV (v : Interval L) (tb : Timeboard L) (duty : DutyValue) (schedule : ScheduleValue L) : Except Err Int :=
  if v.isVoid then .ok 0
  else match v.dutyIdxV tb duty schedule with
    | .error e => .error e
    | .ok (_, _, none) => .ok 0
    | .ok (_, _, some (a, b)) => .ok (b - a + 1)

/-- `schedule` of an interval to be created: interval.py 56-63. -/
def ScheduleValue.check (own : Schedule L) : ScheduleValue L → Except Err (Schedule L)
  | .none => .ok own
  | .schedule s => .ok s
  | .other => .error .typeError

/-- `Interval.overlap`: interval.py 537-546; void: 1070-1073, which does not look at the other interval.  The bounds are checked before the schedule: interval.py 11-63. -/
def Interval.overlapV (v : Interval L) (tb : Timeboard L) (other : OtherValue L) (schedule : ScheduleValue L) : Except Err (Interval L) :=
  if v.isVoid then match schedule.check v.schedule with
    | .error e => .error e
    | .ok s => Interval.newVoid tb (v.lo, v.hi) (some s)
  else match other.get with
    | .error e => .error e
    | .ok o => match schedule.check v.schedule with
      | .ok s => v.overlap tb o (some s)
      | .error e => match v.overlap tb o (some v.schedule) with
        | .error e' => .error e'
        | .ok _ => .error e

/-- `Interval.what_portion_of`: interval.py 807-818; void: 1078-1079.  The intersection has the schedule already. -/
def Interval.whatPortionOfV (v : Interval L) (tb : Timeboard L) (other : OtherValue L) (duty : DutyValue) (schedule : ScheduleValue L) : Except Err Rat :=
  if v.isVoid then .ok 0
  else match v.overlapV tb other schedule with
    | .error e => .error e
    | .ok x => match x.countV tb duty .none with
      | .error e => .error e
      | .ok c => if c = 0 then .ok 0
        else match other.get with
          | .error e => .error e
          | .ok o => match o.countV tb duty (.schedule x.schedule) with
            | .error e => .error e
            | .ok d => pyDiv c d

/-- `Interval.total_duration`: interval.py 925-933; void: 1081-1082. -/
def Interval.totalDurationV (v : Interval L) (tb : Timeboard L) (duty : DutyValue) (schedule : ScheduleValue L) : Except Err Int :=
  if v.isVoid then .ok 0
  else match v.dutyIdxV tb duty schedule with
    | .error e => .error e
    | .ok (_, _, none) => .ok 0
    | .ok (_, idx, some (a, b)) => match tb.timeline.durationsFor (slice idx a b) with
      | .error e => .error e
      | .ok ds => .ok ds.sum

/-- `Interval.worktime`: interval.py 1000-1013 with 868-880; void: 1084-1085. -/
def Interval.worktimeV (v : Interval L) (tb : Timeboard L) (num : L → Option Rat) (duty : DutyValue) (schedule : ScheduleValue L) : Except Err Rat :=
  if v.isVoid then .ok 0
  else if tb.worktimeSource = "labels" then match v.dutyIdxV tb duty schedule with
    | .error e => .error e
    | .ok (_, _, none) => .ok 0
    | .ok (_, idx, some (a, b)) => match (slice idx a b).mapM (fun i => tb.timeline.label i) with
      | .error e => .error e
      | .ok ls => sumNums num ls
  else if tb.worktimeSource = "duration" then (v.totalDurationV tb duty schedule).map (fun d : Int => (d : Rat))
  else .error .runtimeError

/-- `Interval.count_periods`: interval.py 648-721; void: 1075-1076.  `freq` is None for a value which is not one of the supported strings. -/
def Interval.countPeriodsV (v : Interval L) (tb : Timeboard L) (freq : Option Freq) (duty : DutyValue) (schedule : ScheduleValue L) : Except Err Rat :=
  if v.isVoid then .ok 0
  else match freq with
    | none => .error .unacceptablePeriod
    | some f => if !supportedPeriod f then .error .unacceptablePeriod
      else do
        let a ← timeOrTypeError (v.startTime tb)
        let b ← timeOrTypeError (v.endTime tb)
        let index ← Frame.new f a b
        match v.nthV tb (.int 0) duty schedule, v.nthV tb (.int (-1)) duty schedule with
        | .error .outOfBounds, _ => return 0
        | .error e, _ => throw e
        | .ok _, .error .outOfBounds => return 0
        | .ok _, .error e => throw e
        | .ok w0, .ok w1 =>
          let startTs ← w0.toTimestamp tb
          let endTs ← w1.toTimestamp tb
          v.countPeriodsBody tb f duty.duty w0.schedule index startTs endTs

end TB
