import Verif.Model.Workshift
/-!
# Selectors of any kind

`Model/Timeline.lean` has selectors which are total boolean functions.  In Python a selector is any function: it may raise an
exception of its own, return something which is not a boolean, or something which has no truth value (e.g. an array).  This module
models the code which calls selectors: `_Schedule` (core.py 1179-1212), the end of the constructor of `Timeboard`, `add_schedule`,
`to_dataframe`, and the methods of `Workshift` which ask about the duty.  The methods of `Interval` use the indices only.

`V` is the type of values returned, `ε` the type of exceptions raised by the selector or by `bool()` of a value.
Simplifications: selectors do not change their answers; `Series.apply` does not alter the values (it turns None among floats
into NaN).
-/
namespace TB

variable {L V ε : Type}

/-- An exception of the library or one from the selector. -/
inductive Raised (ε : Type) where
  | own (e : Err)
  | foreign (x : ε)

/-- A computation of the library among those which may raise a foreign exception. -/
def ownErr {α : Type} : Except Err α → Except (Raised ε) α
  | .ok a => .ok a
  | .error e => .error (.own e)

/-- The same for a foreign computation. -/
def foreignErr {α : Type} : Except ε α → Except (Raised ε) α
  | .ok a => .ok a
  | .error x => .error (.foreign x)

/-- `[f(x) for x in xs]`: the first exception ends it. -/
def applyEach {α β : Type} (f : α → Except ε β) : List α → Except ε (List β)
  | [] => .ok []
  | x :: xs => match f x with
    | .error e => .error e
    | .ok y => match applyEach f xs with
      | .error e => .error e
      | .ok ys => .ok (y :: ys)

/-- `_Schedule`: core.py 1128-1212. -/
structure AnySchedule (L V ε : Type) where
  name : String
  selector : L → Except ε V
  onIdx : List Int
  offIdx : List Int

/-- `_Schedule.__init__`: core.py 1179-1186: first all labels are shown to the selector, then all answers are turned into
booleans. -/
def AnySchedule.new (truth : V → Except ε Bool) (tl : Timeline L) (name : String) (selector : L → Except ε V) :
    Except ε (AnySchedule L V ε) :=
  match applyEach selector tl.labels with
  | .error x => .error x
  | .ok vs => match applyEach truth vs with
    | .error x => .error x
    | .ok bs => .ok { name := name, selector := selector
                      onIdx := nonzeroBy (fun b => b) bs 0
                      offIdx := nonzeroBy (fun b => !b) bs 0 }

/-- `_Schedule.is_on_duty`: core.py 1207-1209: the answer of the selector as it is. -/
def AnySchedule.isOnDuty (s : AnySchedule L V ε) (tl : Timeline L) (n : Int) : Except (Raised ε) V :=
  match tl.label n with
  | .error e => .error (.own e)
  | .ok l => foreignErr (s.selector l)

/-- `_Schedule.is_off_duty`: core.py 1211-1212: `not` makes a boolean. -/
def AnySchedule.isOffDuty (truth : V → Except ε Bool) (s : AnySchedule L V ε) (tl : Timeline L) (n : Int) : Except (Raised ε) Bool :=
  match s.isOnDuty tl n with
  | .error e => .error e
  | .ok v => match truth v with
    | .error x => .error (.foreign x)
    | .ok b => .ok (!b)

/-- Attributes of a `Timeboard`. -/
structure AnyTimeboard (L V ε : Type) where
  timeline : Timeline L
  defaultSchedule : AnySchedule L V ε
  schedules : List (String × AnySchedule L V ε)
  worktimeSource : String

/-- `Timeboard.__init__`: timeboard.py 164-226; `selector` in place of the selector in `a`. -/
def AnyTimeboard.new (truth : V → Except ε Bool) (a : Args L) (selector : L → Except ε V) (heap : Heap L) :
    Except (Raised ε) (AnyTimeboard L V ε × Heap L) :=
  match makeOrganizer a.layout with
  | .error e => .error (.own e)
  | .ok org =>
    if a.worktimeSource ∉ ["duration", "labels"] then .error (.own .valueError)
    else match Frame.new a.freq a.start a.stop with
      | .error e => .error (.own e)
      | .ok frame => match Timeline.new frame (some org) a.refEnd a.defaultLabel heap with
        | .error e => .error (.own e)
        | .ok (tl0, heap') => match tl0.amend a.amendments with
          | .error e => .error (.own e)
          | .ok tl =>
            let name := a.defaultName.getD "on_duty"
            match AnySchedule.new truth tl name selector with
            | .error x => .error (.foreign x)
            | .ok sch => .ok ({ timeline := tl, defaultSchedule := sch, schedules := [(name, sch)]
                                worktimeSource := a.worktimeSource }, heap')

/-- `Timeboard.add_schedule`: timeboard.py 870-897: the timeboard after the call, and the schedule or the exception. -/
def AnyTimeboard.addSchedule (truth : V → Except ε Bool) (tb : AnyTimeboard L V ε) (name : String) (selector : L → Except ε V) :
    AnyTimeboard L V ε × Except (Raised ε) (AnySchedule L V ε) :=
  if tb.schedules.any (fun p => p.1 == name) then (tb, .error (.own .keyError))
  else match AnySchedule.new truth tb.timeline name selector with
    | .error x => (tb, .error (.foreign x))
    | .ok sch => ({ tb with schedules := tb.schedules ++ [(name, sch)] }, .ok sch)

/-- The columns of `Timeboard.to_dataframe` added for the schedules: timeboard.py 363-367.  Simplification: a dictionary of
Python 3.7 or later (columns in the order of insertion). -/
def dutyColumns (labels : List L) : List (String × AnySchedule L V ε) → Except ε (List (String × List V))
  | [] => .ok []
  | (name, s) :: rest => match applyEach s.selector labels with
    | .error x => .error x
    | .ok vs => match dutyColumns labels rest with
      | .error x => .error x
      | .ok cols => .ok ((name, vs) :: cols)

/-- Attributes of a `Workshift`. -/
structure AnyWorkshift (L V ε : Type) where
  loc : Int
  label : L
  schedule : AnySchedule L V ε

/-- `Workshift.__init__`: workshift.py 72-90. -/
def AnyWorkshift.new (tb : AnyTimeboard L V ε) (loc : Int) (schedule : Option (AnySchedule L V ε) := none) :
    Except (Raised ε) (AnyWorkshift L V ε) :=
  match tb.timeline.label loc with
  | .error _ => .error (.own .outOfBounds)
  | .ok l => .ok { loc := loc, label := l, schedule := schedule.getD tb.defaultSchedule }

/-- `Workshift.is_on_duty`: workshift.py 156-171. -/
def AnyWorkshift.isOnDuty (w : AnyWorkshift L V ε) (tb : AnyTimeboard L V ε) (schedule : Option (AnySchedule L V ε) := none) :
    Except (Raised ε) V := (schedule.getD w.schedule).isOnDuty tb.timeline w.loc

/-- `Workshift.is_off_duty`: workshift.py 173-189. -/
def AnyWorkshift.isOffDuty (truth : V → Except ε Bool) (w : AnyWorkshift L V ε) (tb : AnyTimeboard L V ε)
    (schedule : Option (AnySchedule L V ε) := none) : Except (Raised ε) Bool :=
  (schedule.getD w.schedule).isOffDuty truth tb.timeline w.loc

/-- `Workshift._get_duty_index`: workshift.py 191-204. The truth value of `i_am_on_duty` is taken only with 'same' and 'alt'. -/
def AnyWorkshift.dutyIndex (truth : V → Except ε Bool) (w : AnyWorkshift L V ε) (tb : AnyTimeboard L V ε) (duty : Duty)
    (s : AnySchedule L V ε) : Except (Raised ε) (List Int) := do
  let isOn ← w.isOnDuty tb (some s)
  let isOff ← w.isOffDuty truth tb (some s)
  match duty with
  | .on => return s.onIdx
  | .off => return s.offIdx
  | .same => if ← foreignErr (truth isOn) then return s.onIdx else if isOff then return s.offIdx else throw (.own .valueError)
  | .alt => if isOff then return s.onIdx else if ← foreignErr (truth isOn) then return s.offIdx else throw (.own .valueError)
  | .any => return tb.timeline.index
  | .other => throw (.own .valueError)

/-- `Workshift(self._tb, idx[i], schedule)` at workshift.py 343, 487. -/
def anyWorkshiftAt (tb : AnyTimeboard L V ε) (idx : List Int) (i : Int) (s : AnySchedule L V ε) : Except (Raised ε) (AnyWorkshift L V ε) :=
  match pyGet? idx i with
  | none => .error (.own .indexError)
  | some p => AnyWorkshift.new tb p (some s)

/-- `Workshift.rollforward`: workshift.py 206-343. -/
def AnyWorkshift.rollforward (truth : V → Except ε Bool) (w : AnyWorkshift L V ε) (tb : AnyTimeboard L V ε) (steps : Int := 0)
    (duty : Duty := .on) (schedule : Option (AnySchedule L V ε) := none) : Except (Raised ε) (AnyWorkshift L V ε) := do
  let s := schedule.getD w.schedule
  let idx ← w.dutyIndex truth tb duty s
  let lenIdx : Int := idx.length
  let i := ssLeft idx w.loc
  if i = lenIdx ∨ i + steps < 0 ∨ i + steps ≥ lenIdx then throw (.own .outOfBounds)
  anyWorkshiftAt tb idx (i + steps) s

/-- `Workshift.rollback`: workshift.py 345-487. -/
def AnyWorkshift.rollback (truth : V → Except ε Bool) (w : AnyWorkshift L V ε) (tb : AnyTimeboard L V ε) (steps : Int := 0)
    (duty : Duty := .on) (schedule : Option (AnySchedule L V ε) := none) : Except (Raised ε) (AnyWorkshift L V ε) := do
  let s := schedule.getD w.schedule
  let idx ← w.dutyIndex truth tb duty s
  let lenIdx : Int := idx.length
  let i := scanBack idx w.loc idx.length
  if i = -1 ∨ i - steps < 0 ∨ i - steps ≥ lenIdx then throw (.own .outOfBounds)
  anyWorkshiftAt tb idx (i - steps) s

/-- `Workshift.worktime`: workshift.py 489-586. The duty is asked for whatever `duty` is. -/
def AnyWorkshift.worktime (truth : V → Except ε Bool) (w : AnyWorkshift L V ε) (tb : AnyTimeboard L V ε) (num : L → Option Rat)
    (duty : Duty := .on) (schedule : Option (AnySchedule L V ε) := none) : Except (Raised ε) Rat := do
  let s := schedule.getD w.schedule
  let isOn ← w.isOnDuty tb (some s)
  let isOff ← w.isOffDuty truth tb (some s)
  let flag ← match duty with
    | .on => foreignErr (truth isOn)
    | .off => pure isOff
    | .any => pure true
    | _ => throw (.own .valueError)
  if flag then
    if tb.worktimeSource = "labels" then
      match num w.label with
      | none => throw (.own .typeError)
      | some q => return q
    else if tb.worktimeSource = "duration" then
      let d ← ownErr (tb.timeline.wsDuration w.loc)
      return (d : Rat)
    else throw (.own .runtimeError)
  else return 0

end TB
