import Verif.Model.Workshift
/-!
# Arguments of any kind

Python does not fix the types of arguments.  The rest of the model takes points in time, integers, schedules; this module models
what the code does with the values actually passed: `get_timestamp`, `get_period` (core.py 29-42), `is_null`, `is_iterable`,
`to_iterable` (utils.py 35-52), the checks in the constructors of `Timeboard`, `Workshift`, `_BaseInterval`, `Organizer`, and the
choice between the ways to call a timeboard.
-/
namespace TB

/-- A string, and what pandas reads from it: `pd.Timestamp(s)` and the frequency `s`; `none` is ValueError. -/
structure Word where
  chars : String
  time : Option Time := none
  freq : Option Freq := none

/-- A value passed as argument, as far as the modelled code tells values apart.
Simplifications: a float is given by the point in time which `pd.Timestamp` makes of it; a Workshift by its position and the
result of its `to_timestamp()`; `object` stands for any other value which is not iterable, has no `__getitem__`, no `items` and is
not null. -/
inductive PyValue (L : Type) where
  | pyNone
  | nat
  | bool (b : Bool)
  | int (n : Int)
  | float (t : Time)
  | word (s : Word)
  | time (t : Time)
  | period (p : Period)
  | workshift (loc : Int) (ref : Time)
  | schedule (s : Schedule L)
  | tuple (xs : List (PyValue L))
  | list (xs : List (PyValue L))
  | object

variable {L : Type}

/-- `get_timestamp`: core.py 29-33; `none` is NaT.  `pd.Timestamp` takes a number for nanoseconds since 1970, refuses booleans,
sequences and other objects with TypeError and unreadable strings with ValueError; None and NaN become NaT. -/
def PyValue.timestamp : PyValue L → Except Err (Option Time)
  | .pyNone => .ok none
  | .nat => .ok none
  | .int n => .ok (some n)
  | .float t => .ok (some t)
  | .word s => match s.time with
    | some t => .ok (some t)
    | none => .error .valueError
  | .time t => .ok (some t)
  | .period p => .ok (some p.startTime)
  | .workshift _ ref => .ok (some ref)
  | .bool _ => .error .typeError
  | .schedule _ => .error .typeError
  | .tuple _ => .error .typeError
  | .list _ => .error .typeError
  | .object => .error .typeError

/-- None or NaT. -/
def PyValue.isNull : PyValue L → Bool
  | .pyNone => true
  | .nat => true
  | _ => false

/-- `if is_null(x)` at timeboard.py 804: utils.py 51-52.  `pd.isnull` of a list is an array, whose truth value is that of its
only element; with several elements it raises ValueError (with none it is taken for False, as numpy does up to version 2.1).  `pd.isnull` of a
tuple is False. -/
def PyValue.testNull : PyValue L → Except Err Bool
  | .list [] => .ok false
  | .list [x] => .ok x.isNull
  | .list (_ :: _ :: _) => .error .valueError
  | x => .ok x.isNull

/-- `isinstance(x, int)` and the number: booleans are integers. -/
def PyValue.asInt : PyValue L → Option Int
  | .int n => some n
  | .bool b => some (if b then 1 else 0)
  | _ => none

/-- A sequence (tuple or list; `is_iterable` in utils.py 35-37 is False for strings). -/
def PyValue.asSeq : PyValue L → Option (List (PyValue L))
  | .tuple xs => some xs
  | .list xs => some xs
  | _ => none

/-- `schedule` when it is not None must be a `_Schedule`: workshift.py 73-77, interval.py 56-63. -/
def PyValue.toSchedule (tb : Timeboard L) : PyValue L → Except Err (Schedule L)
  | .pyNone => .ok tb.defaultSchedule
  | .schedule s => .ok s
  | _ => .error .typeError

/-- `get_ws_position` for NaT: core.py 893-916 with core.py 234-242.  Neither comparison with NaT holds, `searchsorted` puts NaT after
all points in time (before all of them in numpy older than 1.18; the index -1 then denotes the same, last base unit). -/
def Timeline.wsPositionNull (tl : Timeline L) : Except Err Int :=
  match pyGet? tl.frameband ((tl.frame.n : Int) - 1) with
  | none => .error .indexError
  | some idx => match tl.wsIdx.findIdx? (fun x => x == idx) with
    | none => .error .keyError
    | some p => .ok (p : Int)

/-- `Timeboard._locate` without `by_ref`: timeboard.py 370-422. -/
def Timeboard.locateV (tb : Timeboard L) (v : PyValue L) : Except Err Location :=
  match v.timestamp with
  | .error e => .error e
  | .ok (some t) => tb.locate t
  | .ok none => match tb.timeline.wsPositionNull with
    | .error e => .error e
    | .ok loc => .ok { pos := some loc, side := 0 }

/-- `Workshift.__init__`: workshift.py 72-90.  `Series.iloc` refuses scalars other than integers with TypeError.
Simplification: TypeError also for a sequence as location (`iloc` then returns several labels). -/
def Workshift.newV (tb : Timeboard L) (loc schedule : PyValue L) : Except Err (Workshift L) :=
  match schedule.toSchedule tb with
  | .error e => .error e
  | .ok s => match loc with
    | .int n => Workshift.new tb n (some s)
    | _ => .error .typeError

/-- `Timeboard.get_workshift`: timeboard.py 438-496. -/
def Timeboard.getWorkshiftV (tb : Timeboard L) (v schedule : PyValue L) : Except Err (Workshift L) :=
  match tb.locateV v with
  | .error e => .error e
  | .ok loc => match loc.pos with
    | none => .error .outOfBounds
    | some p => Workshift.newV tb (.int p) schedule

/-- `handle_bound`: interval.py 13-27. -/
def handleBoundV (tb : Timeboard L) : PyValue L → Except Err Int
  | .workshift loc _ => handleBound tb loc
  | .int n => handleBound tb n
  | .bool b => handleBound tb (if b then 1 else 0)
  | _ => .error .typeError

/-- `bounds[0]`, `bounds[1]`: interval.py 29-37.  The elements of a string are strings. -/
def PyValue.twoItems : PyValue L → Except Err (PyValue L × PyValue L)
  | .tuple (x :: y :: _) => .ok (x, y)
  | .list (x :: y :: _) => .ok (x, y)
  | .tuple _ => .error .indexError
  | .list _ => .error .indexError
  | .word s => match s.chars.toList with
    | c :: d :: _ => .ok (.word { chars := String.singleton c }, .word { chars := String.singleton d })
    | _ => .error .indexError
  | _ => .error .typeError

/-- `_BaseInterval.__init__`: interval.py 11-63.  The schedule is checked last. -/
def Interval.makeV (tb : Timeboard L) (bounds schedule : PyValue L) (void : Bool) : Except Err (Interval L) :=
  match bounds.twoItems with
  | .error e => .error e
  | .ok (x, y) => match handleBoundV tb x with
    | .error e => .error e
    | .ok a => match handleBoundV tb y with
      | .error e => .error e
      | .ok b =>
        if void then
          if a ≤ b then .error .voidInterval
          else match schedule.toSchedule tb with
            | .error e => .error e
            | .ok s => .ok { lo := a, hi := b, length := 0, isVoid := true, schedule := s }
        else
          if a > b then .error .voidInterval
          else match schedule.toSchedule tb with
            | .error e => .error e
            | .ok s => .ok { lo := a, hi := b, length := b - a + 1, isVoid := false, schedule := s }

/-- `_get_interval_locs_from_reference`: timeboard.py 800-816. -/
def Timeboard.locsFromReferenceV (tb : Timeboard L) (ref : PyValue L) (dropHead dropTail : Bool) : Except Err (Location × Location) :=
  let l0 : Location := { pos := some 0, side := 0 }
  let l1 : Location := { pos := some (tb.timeline.len - 1), side := 0 }
  match ref.testNull with
  | .error e => .error e
  | .ok true => .ok (stripLocs (l0, l1) dropHead dropTail)
  | .ok false => match ref.asSeq with
    | some (a :: b :: _) => match (if a.isNull then .ok l0 else tb.locateV a) with
      | .error e => .error e
      | .ok x => match (if b.isNull then .ok l1 else tb.locateV b) with
        | .error e => .error e
        | .ok y => .ok (stripLocs (x, y) dropHead dropTail)
    | _ => .error .typeError

/-- `_get_interval_locs_by_length`: timeboard.py 818-839. -/
def Timeboard.locsByLengthV (tb : Timeboard L) (ref length : PyValue L) (dropHead dropTail : Bool) : Except Err (Location × Location) :=
  match length.asInt with
  | none => .error .typeError
  | some n =>
    if n = 0 then .error .voidInterval
    else match tb.locateV ref with
      | .error e => .error e
      | .ok this => match this.pos with
        | none => .ok (this, this)
        | some p =>
          let other := p + n - (if n < 0 then -1 else 1)
          let locs : Location × Location :=
            if other < 0 then ({ pos := none, side := -1 }, this)
            else if other ≥ tb.timeline.len then (this, { pos := none, side := 1 })
            else if other < p then ({ pos := some other, side := 0 }, this)
            else (this, { pos := some other, side := 0 })
          .ok (stripLocs locs dropHead dropTail)

/-- `get_period(ref, freq)`: core.py 35-42; `freq = None` is TypeError.  `pd.Period` checks the frequency
before the value; NaT, which it returns for NaT, has no `start_time` (AttributeError, raised at timeboard.py 844).
Simplification: a frequency which is not a string is reported as ValueError. -/
def PyValue.toPeriod (ref freq : PyValue L) : Except Err Period :=
  match ref with
  | .period p => .ok p
  | _ => match freq with
    | .pyNone => .error .typeError
    | _ => match ref.timestamp with
      | .error e => .error e
      | .ok t? => match freq with
        | .word { freq := some f, .. } => match t? with
          | some t => .ok (Period.ofTime f t)
          | none => .error .attributeError
        | _ => .error .valueError

/-- The choice of technique: timeboard.py 738-762. -/
def Timeboard.intervalLocsV (tb : Timeboard L) (ref length period : PyValue L) (clip dropHead dropTail : Bool) : Except Err (Location × Location) :=
  match length, period with
  | .pyNone, .pyNone =>
    match tb.locsFromReferenceV ref dropHead dropTail with
    | .error .typeError => match ref.toPeriod .pyNone with
      | .error _ => .error .typeError
      | .ok p => tb.locsByPeriod p clip dropHead dropTail
    | r => r
  | length, .pyNone => tb.locsByLengthV ref length dropHead dropTail
  | .pyNone, period => match ref.toPeriod period with
    | .error e => .error e
    | .ok p => tb.locsByPeriod p clip dropHead dropTail
  | _, _ => .error .typeError

/-- The last part of `get_interval`: timeboard.py 764-788. -/
def Timeboard.finishIntervalV (tb : Timeboard L) (locs : Location × Location) (schedule : PyValue L) : Except Err (Interval L) :=
  if !locationsInOrder locs then .error .voidInterval
  else match locs.1.pos, locs.2.pos with
    | none, none => if locs.1.side = locs.2.side then .error .outOfBounds else .error .partialOutOfBounds
    | none, some _ => .error .partialOutOfBounds
    | some _, none => .error .partialOutOfBounds
    | some a, some b => Interval.makeV tb (.tuple [.int a, .int b]) schedule false

/-- The string, if the value is one. -/
def PyValue.chars : PyValue L → Option String
  | .word s => some s.chars
  | _ => none

/-- `Timeboard.get_interval`: timeboard.py 498-788.  `clip` is the truth value of `clip_period`. -/
def Timeboard.getIntervalV (tb : Timeboard L) (ref length period : PyValue L) (clip : Bool) (closed schedule : PyValue L) : Except Err (Interval L) :=
  match closed.chars with
  | none => .error .valueError
  | some c =>
    if c ∉ ["00", "01", "10", "11"] then .error .valueError
    else
      let dropHead := decide (c = "00" ∨ c = "01")
      let dropTail := decide (c = "00" ∨ c = "10")
      match tb.intervalLocsV ref length period clip dropHead dropTail with
      | .error e => .error e
      | .ok locs => tb.finishIntervalV locs schedule

/-- `tb(v)`: timeboard.py 308-318. -/
def Timeboard.call1V (tb : Timeboard L) (v : PyValue L) : Except Err (CallResult L) :=
  let viaInterval := match tb.getIntervalV v .pyNone .pyNone true (.word { chars := "11" }) .pyNone with
    | .error e => .error e
    | .ok i => .ok (.interval i)
  match tb.getWorkshiftV v .pyNone with
  | .ok w => .ok (.workshift w)
  | .error .outOfBounds => .error .outOfBounds
  | .error _ => viaInterval

/-- `tb(...)` with another number of arguments: timeboard.py 315-318. -/
def Timeboard.callNV (tb : Timeboard L) (ref length period : PyValue L) (clip : Bool) (closed schedule : PyValue L) : Except Err (CallResult L) :=
  match tb.getIntervalV ref length period clip closed schedule with
  | .error e => .error e
  | .ok i => .ok (.interval i)

/-- `ws + v`: workshift.py 588-593; NotImplemented becomes TypeError. -/
def Workshift.addV (w : Workshift L) (tb : Timeboard L) (v : PyValue L) : Except Err (Workshift L) :=
  match v.asInt with
  | some n => w.add tb n
  | none => .error .typeError

/-- `ws - v`: workshift.py 595-602. -/
def Workshift.subV (w : Workshift L) (tb : Timeboard L) (v : PyValue L) : Except Err (Workshift L) :=
  match v.asInt with
  | some n => w.sub tb n
  | none => .error .typeError

/-- `get_ws_position(key)` for any value: core.py 893-916. -/
def Timeline.wsPositionV (tl : Timeline L) (v : PyValue L) : Except Err Int :=
  match v.timestamp with
  | .error e => .error e
  | .ok (some t) => tl.wsPosition t
  | .ok none => tl.wsPositionNull

/-- The loop of `amend`: core.py 1047-1060, with keys of any kind. -/
def Timeline.amendLocateV (tl : Timeline L) (raising : Bool) : List (PyValue L × L) → List (Int × L) → Except Err (List (Int × L))
  | [], acc => .ok acc
  | (k, v) :: rest, acc => match tl.wsPositionV k with
    | .error .outOfBounds => if raising then .error .outOfBounds else tl.amendLocateV raising rest acc
    | .error e => .error e
    | .ok loc =>
      if acc.any (fun p => p.1 == loc) then .error .keyError
      else tl.amendLocateV raising rest (acc ++ [(loc, v)])

/-- `amend`: core.py 1016-1063. -/
def Timeline.amendV (tl : Timeline L) (amendments : List (PyValue L × L)) (raising : Bool := false) : Except Err (Timeline L) :=
  match tl.amendLocateV raising amendments [] with
  | .error e => .error e
  | .ok located => .ok { tl with labels := ilocAssign tl.labels located }

/-- What is passed as `amendments`: None, a dictionary, something without `items`. -/
inductive AmendArg (L : Type) where
  | none
  | dict (items : List (PyValue L × L))
  | noItems

/-- `Timeboard.__init__`: timeboard.py 164-226, with amendments of any kind (the amendments in `a` are not used). -/
def Timeboard.newV (a : Args L) (amendments : AmendArg L) (heap : Heap L) : Except Err (Timeboard L × Heap L) :=
  match makeOrganizer a.layout with
  | .error e => .error e
  | .ok org => match (match amendments with | .none => some [] | .dict items => some items | .noItems => none) with
    | none => .error .typeError
    | some items =>
      if a.worktimeSource ∉ ["duration", "labels"] then .error .valueError
      else match Frame.new a.freq a.start a.stop with
        | .error e => .error e
        | .ok frame => match Timeline.new frame (some org) a.refEnd a.defaultLabel heap with
          | .error e => .error e
          | .ok (tl0, heap') => match tl0.amendV items with
            | .error e => .error e
            | .ok tl =>
              let name := a.defaultName.getD "on_duty"
              let sch := Schedule.new tl name a.selector
              .ok ({ timeline := tl, defaultSchedule := sch, schedules := [(name, sch)]
                     worktimeSource := a.worktimeSource }, heap')

/-- What is passed as `marker`: a Marker or a frequency. -/
inductive MarkerArg where
  | marker (m : Marker)
  | freq (f : Freq)

/-- What is passed as `marks`: one point in time or several. -/
inductive MarksArg where
  | one (t : Time)
  | many (ts : List Time)

/-- What is passed as `structure`: an ordinary iterable, a RememberingPattern, something not iterable (None, a string, a number). -/
inductive StructureArg (L : Type) where
  | elems (ls : List (Layout L))
  | remembering (id : Nat)
  | notIterable

/-- `Organizer.__init__`: core.py 1344-1356 with `to_iterable` (utils.py 40-46). -/
def organizerV (marker : Option MarkerArg) (marks : Option MarksArg) (structure_ : StructureArg L) : Except Err (Layout L) :=
  match marker, marks with
  | none, none => .error .valueError
  | some _, some _ => .error .valueError
  | some m, none =>
    let cut := Cut.marker (match m with | .marker m => m | .freq f => { each := f, ats := [] })
    match structure_ with
    | .elems ls => .ok (.organizer cut ls)
    | .remembering id => .ok (.organizerRP cut id)
    | .notIterable => .error .typeError
  | none, some ts =>
    let cut := Cut.marks (match ts with | .one t => [t] | .many ts => ts)
    match structure_ with
    | .elems ls => .ok (.organizer cut ls)
    | .remembering id => .ok (.organizerRP cut id)
    | .notIterable => .error .typeError

end TB
