import Verif.Model.Timeline
/-!
# Timeboards, workshifts and intervals: construction and lookup

Models `timeboard/timeboard.py` and the constructors in `timeboard/workshift.py`, `timeboard/interval.py`.
-/
namespace TB

/-- `Timeboard`: timeboard.py 190-213.  `schedules` is the dictionary (in insertion order), `worktimeSource`
the parameter of this name. -/
structure Timeboard (L : Type) where
  timeline : Timeline L
  defaultSchedule : Schedule L
  schedules : List (String × Schedule L)
  worktimeSource : String

/-- timeboard.py 173-184: an Organizer is taken as is; an iterable becomes
`Organizer(marks=[], structure=[layout])`; for a RememberingPattern `len(layout)` (line 176) raises TypeError as the
class has no `__len__`; anything else is TypeError. -/
def makeOrganizer {L : Type} : Layout L → Except Err (Layout L)
  | .organizer c e => .ok (.organizer c e)
  | .organizerRP c i => .ok (.organizerRP c i)
  | .pattern (.list xs) => .ok (.organizer (.marks []) [.pattern (.list xs)])
  | .pattern (.rp _) => .error .typeError
  | .label _ => .error .typeError

/-- The arguments of the constructor: timeboard.py 164-170.  `selector` is the selector in effect:
`default_selector`, or `bool(x)` when it is None (timeboard.py 253-262). -/
structure Args (L : Type) where
  freq : Freq
  start : Time
  stop : Time
  layout : Layout L
  amendments : List (Time × L) := []
  selector : L → Bool
  defaultName : Option String := none
  refEnd : Bool := false
  defaultLabel : L
  worktimeSource : String := "duration"

/-- `Timeboard.__init__`: timeboard.py 164-226 (without the `repr` text).  The states of
RememberingPatterns are passed through. -/
def Timeboard.new {L : Type} (a : Args L) (heap : Heap L) : Except Err (Timeboard L × Heap L) :=
  match makeOrganizer a.layout with
  | .error e => .error e
  | .ok org =>
    if a.worktimeSource ∉ ["duration", "labels"] then .error .valueError
    else match Frame.new a.freq a.start a.stop with
      | .error e => .error e
      | .ok frame => match Timeline.new frame (some org) a.refEnd a.defaultLabel heap with
        | .error e => .error e
        | .ok (tl0, heap') => match tl0.amend a.amendments with
          | .error e => .error e
          | .ok tl =>
            let name := a.defaultName.getD "on_duty"
            let sch := Schedule.new tl name a.selector
            .ok ({ timeline := tl, defaultSchedule := sch, schedules := [(name, sch)]
                   worktimeSource := a.worktimeSource }, heap')

/-- `Timeboard.start_time`: timeboard.py 245-247. -/
def Timeboard.startTime {L : Type} (tb : Timeboard L) : Time := tb.timeline.frame.startTime

/-- `Timeboard.end_time`: timeboard.py 249-251. -/
def Timeboard.endTime {L : Type} (tb : Timeboard L) : Time := tb.timeline.frame.endTime

/-- `_Location.where`: OOB_LEFT = -1, LOC_WITHIN = 0, OOB_RIGHT = 1 (timeboard.py 14-18). -/
structure Location where
  pos : Option Int
  side : Int
  deriving DecidableEq, Repr

/-- Parameter `by_ref` of `_locate`. -/
inductive ByRef where
  | none | before | after
  deriving DecidableEq

/-- `Timeboard._locate`: timeboard.py 370-422. -/
def Timeboard.locate {L : Type} (tb : Timeboard L) (t : Time) (byRef : ByRef := .none) : Except Err Location :=
  let r := match byRef with
    | .none => tb.timeline.wsPosition t
    | .before => tb.timeline.posByRefBefore t
    | .after => tb.timeline.posByRefAfter t
  match r with
  | .ok loc => if loc < 0 then .error .runtimeError else .ok { pos := some loc, side := 0 }
  | .error .outOfBounds =>
    if t < tb.startTime then .ok { pos := none, side := -1 }
    else if t > tb.endTime then .ok { pos := none, side := 1 }
    else match byRef with
      | .before => .ok { pos := none, side := -1 }
      | .after => .ok { pos := none, side := 1 }
      | .none => .error .runtimeError
  | .error e => .error e

/-- `Workshift`: workshift.py 72-90. -/
structure Workshift (L : Type) where
  loc : Int
  label : L
  schedule : Schedule L

/-- `Workshift.__init__`: workshift.py 72-90.  `schedule = none` means the default schedule. -/
def Workshift.new {L : Type} (tb : Timeboard L) (loc : Int) (schedule : Option (Schedule L) := none) :
    Except Err (Workshift L) :=
  match tb.timeline.label loc with
  | .error _ => .error .outOfBounds
  | .ok l => .ok { loc := loc, label := l, schedule := schedule.getD tb.defaultSchedule }

/-- `Timeboard.get_workshift`: timeboard.py 438-496. -/
def Timeboard.getWorkshift {L : Type} (tb : Timeboard L) (t : Time) (schedule : Option (Schedule L) := none) :
    Except Err (Workshift L) :=
  match tb.locate t with
  | .error e => .error e
  | .ok loc => match loc.pos with
    | none => .error .outOfBounds
    | some p => Workshift.new tb p schedule

/-- `Interval` / `_VoidInterval`: interval.py 9-63, 66, 1016. -/
structure Interval (L : Type) where
  lo : Int
  hi : Int
  length : Int
  isVoid : Bool
  schedule : Schedule L

/-- `handle_bound` for an integer: interval.py 22-26. -/
def handleBound {L : Type} (tb : Timeboard L) (loc : Int) : Except Err Int :=
  if 0 ≤ loc ∧ loc < tb.timeline.len then .ok loc else .error .outOfBounds

/-- `_BaseInterval.__init__`: interval.py 11-63, for class `Interval` (`void = false`) and
`_VoidInterval` (`void = true`).  Simplification: bounds are integers (a Workshift stands for its position). -/
def Interval.make {L : Type} (tb : Timeboard L) (bounds : Int × Int) (schedule : Option (Schedule L))
    (void : Bool) : Except Err (Interval L) :=
  match handleBound tb bounds.1, handleBound tb bounds.2 with
  | .error e, _ => .error e
  | .ok _, .error e => .error e
  | .ok a, .ok b =>
    if void then
      if a ≤ b then .error .voidInterval
      else .ok { lo := a, hi := b, length := 0, isVoid := true, schedule := schedule.getD tb.defaultSchedule }
    else
      if a > b then .error .voidInterval
      else .ok { lo := a, hi := b, length := b - a + 1, isVoid := false
                 schedule := schedule.getD tb.defaultSchedule }

/-- `Interval(tb, bounds, schedule)`. -/
def Interval.new {L : Type} (tb : Timeboard L) (bounds : Int × Int) (schedule : Option (Schedule L) := none) :
    Except Err (Interval L) := Interval.make tb bounds schedule false

/-- `_VoidInterval(tb, bounds, schedule)`. -/
def Interval.newVoid {L : Type} (tb : Timeboard L) (bounds : Int × Int) (schedule : Option (Schedule L) := none) :
    Except Err (Interval L) := Interval.make tb bounds schedule true

/-- What can be passed as `interval_ref` (other than None): a sequence of two optional points in time,
a shorter sequence, a point in time, a `pandas.Period`. -/
inductive IvlRef where
  | pair (a b : Option Time)
  | short
  | point (t : Time)
  | period (p : Period)

/-- `get_timestamp(ref)`: core.py 29-33; `none` is the exception raised by `pd.Timestamp` for a sequence. -/
def IvlRef.toTime? : IvlRef → Option Time
  | .point t => some t
  | .period p => some p.startTime
  | _ => none

/-- `get_period(ref, freq)`: core.py 35-42; `none` is an exception. -/
def getPeriod (ref : IvlRef) (freq : Option Freq) : Option Period :=
  match ref with
  | .period p => some p
  | .point t => match freq with
    | some f => some (Period.ofTime f t)
    | none => none
  | _ => none

/-- `_strip_interval_locs`: timeboard.py 860-868. -/
def stripLocs (locs : Location × Location) (dropHead dropTail : Bool) : Location × Location :=
  ({ locs.1 with pos := if dropHead then locs.1.pos.map (fun p => p + 1) else locs.1.pos },
   { locs.2 with pos := if dropTail then locs.2.pos.map (fun p => p - 1) else locs.2.pos })

/-- `_locations_in_order`: timeboard.py 790-798 (the positions are integers when both are WITHIN). -/
def locationsInOrder (locs : Location × Location) : Bool :=
  if locs.1.side = 0 ∧ locs.2.side = 0 then
    match locs.1.pos, locs.2.pos with
    | some a, some b => decide (a ≤ b)
    | _, _ => false
  else decide (locs.1.side ≤ locs.2.side)

/-- `_get_interval_locs_from_reference`: timeboard.py 800-816. -/
def Timeboard.locsFromReference {L : Type} (tb : Timeboard L) (ref : Option IvlRef) (dropHead dropTail : Bool) :
    Except Err (Location × Location) := do
  let l0 : Location := { pos := some 0, side := 0 }
  let l1 : Location := { pos := some (tb.timeline.len - 1), side := 0 }
  match ref with
  | none => return stripLocs (l0, l1) dropHead dropTail
  | some (.pair a b) =>
    let x ← match a with
      | none => pure l0
      | some t => tb.locate t
    let y ← match b with
      | none => pure l1
      | some t => tb.locate t
    return stripLocs (x, y) dropHead dropTail
  | some _ => throw .typeError

/-- `_get_interval_locs_by_length`: timeboard.py 818-839.
Simplification: `length` is an integer; a null reference (NaT) is not modelled and gives the TypeError of
a meaningless one. -/
def Timeboard.locsByLength {L : Type} (tb : Timeboard L) (ref : Option IvlRef) (length : Int)
    (dropHead dropTail : Bool) : Except Err (Location × Location) :=
  if length = 0 then .error .voidInterval
  else match ref.bind IvlRef.toTime? with
    | none => .error .typeError
    | some t => match tb.locate t with
      | .error e => .error e
      | .ok this => match this.pos with
        | none => .ok (this, this)
        | some p =>
          let other := p + length - (if length < 0 then -1 else 1)
          let locs : Location × Location :=
            if other < 0 then ({ pos := none, side := -1 }, this)
            else if other ≥ tb.timeline.len then (this, { pos := none, side := 1 })
            else if other < p then ({ pos := some other, side := 0 }, this)
            else (this, { pos := some other, side := 0 })
          .ok (stripLocs locs dropHead dropTail)

/-- `_get_interval_locs_by_period`: timeboard.py 841-858. -/
def Timeboard.locsByPeriod {L : Type} (tb : Timeboard L) (p : Period) (clip : Bool)
    (dropHead dropTail : Bool) : Except Err (Location × Location) := do
  let x ← tb.locate p.startTime .after
  let y ← tb.locate p.endTime .before
  let clipL : Bool := clip && decide (x.side = -1) && decide (y.side ≠ -1)
  let clipR : Bool := clip && decide (y.side = 1) && decide (x.side ≠ 1)
  let p0 := if clipL then some 0 else x.pos
  let p1 := if clipR then some (tb.timeline.len - 1) else y.pos
  return stripLocs ({ x with pos := p0 }, { y with pos := p1 })
    (if clipL then false else dropHead) (if clipR then false else dropTail)

/-- The last part of `get_interval`: timeboard.py 764-788. -/
def Timeboard.finishInterval {L : Type} (tb : Timeboard L) (locs : Location × Location)
    (schedule : Option (Schedule L)) : Except Err (Interval L) :=
  if !locationsInOrder locs then .error .voidInterval
  else match locs.1.pos, locs.2.pos with
    | none, none => if locs.1.side = locs.2.side then .error .outOfBounds else .error .partialOutOfBounds
    | none, some _ => .error .partialOutOfBounds
    | some _, none => .error .partialOutOfBounds
    | some a, some b => Interval.new tb (a, b) schedule

/-- The choice of technique: timeboard.py 738-762. -/
def Timeboard.intervalLocs {L : Type} (tb : Timeboard L) (ref : Option IvlRef) (length : Option Int)
    (period : Option Freq) (clip dropHead dropTail : Bool) : Except Err (Location × Location) :=
  match length, period with
  | none, none =>
    match tb.locsFromReference ref dropHead dropTail with
    | .error .typeError => match ref.bind (fun r => getPeriod r none) with
      | none => .error .typeError
      | some p => tb.locsByPeriod p clip dropHead dropTail
    | r => r
  | some n, none => tb.locsByLength ref n dropHead dropTail
  | none, some f => match ref.bind (fun r => getPeriod r (some f)) with
    | none => .error .typeError
    | some p => tb.locsByPeriod p clip dropHead dropTail
  | some _, some _ => .error .typeError

/-- `Timeboard.get_interval`: timeboard.py 498-788. -/
def Timeboard.getInterval {L : Type} (tb : Timeboard L) (ref : Option IvlRef) (length : Option Int := none)
    (period : Option Freq := none) (clip : Bool := true) (closed : String := "11")
    (schedule : Option (Schedule L) := none) : Except Err (Interval L) :=
  if closed ∉ ["00", "01", "10", "11"] then .error .valueError
  else
    let dropHead := decide (closed = "00" ∨ closed = "01")
    let dropTail := decide (closed = "00" ∨ closed = "10")
    match tb.intervalLocs ref length period clip dropHead dropTail with
    | .error e => .error e
    | .ok locs => tb.finishInterval locs schedule

/-- Result of calling a timeboard. -/
inductive CallResult (L : Type) where
  | workshift (w : Workshift L)
  | interval (i : Interval L)

/-- `tb(ref)`, a call with a single positional argument: timeboard.py 308-318.  The bare `except` swallows every
error but OutOfBoundsError. -/
def Timeboard.call1 {L : Type} (tb : Timeboard L) (ref : IvlRef) : Except Err (CallResult L) :=
  let viaInterval := match tb.getInterval (some ref) with
    | .error e => .error e
    | .ok i => .ok (.interval i)
  match ref.toTime? with
  | none => viaInterval
  | some t => match tb.getWorkshift t with
    | .ok w => .ok (.workshift w)
    | .error .outOfBounds => .error .outOfBounds
    | .error _ => viaInterval

/-- `tb(...)` with no positional argument or with several arguments / keywords: timeboard.py 315-318. -/
def Timeboard.callN {L : Type} (tb : Timeboard L) (ref : Option IvlRef) (length : Option Int)
    (period : Option Freq) (clip : Bool) (closed : String) (schedule : Option (Schedule L)) :
    Except Err (CallResult L) :=
  match tb.getInterval ref length period clip closed schedule with
  | .error e => .error e
  | .ok i => .ok (.interval i)

/-- `Timeboard.add_schedule`: timeboard.py 870-897.  Returns the new schedule and the timeboard after the call. -/
def Timeboard.addSchedule {L : Type} (tb : Timeboard L) (name : String) (selector : L → Bool) :
    Except Err (Schedule L × Timeboard L) :=
  if tb.schedules.any (fun p => p.1 == name) then .error .keyError
  else
    let sch := Schedule.new tb.timeline name selector
    .ok (sch, { tb with schedules := tb.schedules ++ [(name, sch)] })

/-- `Timeboard.drop_schedule`: timeboard.py 899-911 (`del self.schedules[schedule.name]`). -/
def Timeboard.dropSchedule {L : Type} (tb : Timeboard L) (schedule : Schedule L) : Except Err (Timeboard L) :=
  if tb.schedules.any (fun p => p.1 == schedule.name) then
    .ok { tb with schedules := tb.schedules.filter (fun p => !(p.1 == schedule.name)) }
  else .error .keyError

/-- A row of `Timeboard.to_dataframe`: the timeline's row and one column per schedule. -/
structure TbRow (L : Type) where
  row : Row L
  duty : List (String × Bool)
  deriving DecidableEq

/-- `Timeboard.to_dataframe`: timeboard.py 320-368; `none` means the first / last workshift. -/
def Timeboard.toDataframe {L : Type} (tb : Timeboard L) (firstWs lastWs : Option Int) :
    Except Err (List (TbRow L)) :=
  let a := firstWs.getD 0
  let b := lastWs.getD (tb.timeline.len - 1)
  if ¬ (0 ≤ a ∧ a < tb.timeline.len ∧ 0 ≤ b ∧ b < tb.timeline.len) then .error .assertionError
  else match tb.timeline.toDataframe a b with
    | .error e => .error e
    | .ok rows => .ok (rows.map (fun r =>
        { row := r, duty := tb.schedules.map (fun p => (p.1, p.2.selector r.label)) }))

end TB
