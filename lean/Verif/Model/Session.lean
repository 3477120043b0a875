import Verif.Model.Interval
/-!
# Working with several objects at a time

A Python program holds several objects: Interval objects, generators returned by `Interval.workshifts`, Workshift objects. It uses
them in any order. This module models objects with their identities and the operations whose outcome depends on what was done
before: generators (interval.py 267-314, 1058-1060), the iterator protocol of `Interval` (interval.py 316-324), and the operators
`in` and `==`, which neither `Interval` nor `Workshift` defines, so that Python's defaults apply.
-/
namespace TB

variable {L : Type}

/-- A generator object of `Interval.workshifts` (interval.py 267-314; void: 1058-1060). -/
inductive Gen (L : Type) where
  /-- Not yet advanced: nothing of the body has been executed, not even the check of `duty`. -/
  | fresh (v : Interval L) (duty : Duty) (schedule : Option (Schedule L))
  /-- Suspended at `yield` (interval.py 314); `rest` is what remains of the slice in the header of the loop (313). -/
  | running (schedule : Schedule L) (rest : List Int)
  /-- Returned or raised. -/
  | finished

/-- The loop of `Interval.workshifts` up to the next `yield`: interval.py 313-314. -/
def Gen.loop (tb : Timeboard L) (s : Schedule L) : List Int → Except Err (Option (Workshift L)) × Gen L
  | [] => (.ok none, .finished)
  | i :: rest => match Workshift.new tb i (some s) with
    | .error e => (.error e, .finished)
    | .ok w => (.ok (some w), .running s rest)

/-- `next(generator)`; `none` is StopIteration. interval.py 308-314; void: 1058-1060. -/
def Gen.next (tb : Timeboard L) : Gen L → Except Err (Option (Workshift L)) × Gen L
  | .fresh v duty schedule =>
    if v.isVoid then (.ok none, .finished)
    else
      let s := schedule.getD v.schedule
      match v.dutyIdx tb duty s with
      | .error e => (.error e, .finished)
      | .ok (_, none) => (.ok none, .finished)
      | .ok (idx, some (a, b)) => Gen.loop tb s (slice idx a b)
  | .running s rest => Gen.loop tb s rest
  | .finished => (.ok none, .finished)

/-- The objects of a program. The identity of an object is its position in the list. The second component of an
interval is its attribute `_ws_generator_activated` (interval.py 317, 323), which does not exist (`none`) until
`__iter__` is called. -/
structure Session (L : Type) where
  tb : Timeboard L
  workshifts : List (Workshift L)
  generators : List (Gen L)
  intervals : List (Interval L × Option (Gen L))

/-- What a program does. -/
inductive Act (L : Type) where
  /-- An Interval object is obtained from a method of the timeboard or of an object. -/
  | interval (v : Interval L)
  /-- A Workshift object is obtained from a method of the timeboard or of an object. -/
  | workshift (w : Workshift L)
  /-- `v.workshifts(duty, schedule)`. -/
  | generate (i : Nat) (duty : Duty) (schedule : Option (Schedule L))
  /-- `next(generator)`. -/
  | advance (g : Nat)
  /-- `iter(v)`. -/
  | iter (i : Nat)
  /-- `next(v)`, `v.next()`. -/
  | next (i : Nat)
  /-- `w in v`. -/
  | contains (i : Nat) (w : Nat)
  /-- `w == x` for Workshift objects. -/
  | equal (w x : Nat)
  /-- `timeboard.add_schedule(name, selector)`. -/
  | addSchedule (name : String) (selector : L → Bool)
  /-- `timeboard.drop_schedule(schedule)`. -/
  | dropSchedule (schedule : Schedule L)

/-- What the program gets. -/
inductive Res where
  /-- An object with this identity (of the kind which the operation delivers). -/
  | object (n : Nat)
  /-- A truth value. -/
  | truth (b : Bool)
  /-- The call returned (the schedule which `add_schedule` returns is the subject of `Timeboard.addSchedule`). -/
  | done
  /-- StopIteration. -/
  | stop
  /-- Another exception. -/
  | error (e : Err)
  /-- No such object (not possible in Python). -/
  | nothing
  deriving DecidableEq, Repr

/-- The outcome of an advance is handed to the program as a new object. -/
def Session.deliver (s : Session L) : Except Err (Option (Workshift L)) → Session L × Res
  | .error e => (s, .error e)
  | .ok none => (s, .stop)
  | .ok (some w) => ({ s with workshifts := s.workshifts ++ [w] }, .object s.workshifts.length)

/-- The search of `w in v`: Python calls `iter(v)`, then `next(v)` until the object delivered is `w` itself or equal to
it; as `Workshift` does not define `__eq__`, it is equal to itself only. `made` are the Workshift objects so far; the
loop over the slice is interval.py 313-314. Simplification: the objects delivered here are kept, as if they were not
garbage-collected: their identities are not given to other objects. -/
def Gen.search (tb : Timeboard L) (s : Schedule L) (w : Nat) (made : List (Workshift L)) :
    List Int → Except Err Bool × List (Workshift L) × Gen L
  | [] => (.ok false, made, .finished)
  | i :: rest => match Workshift.new tb i (some s) with
    | .error e => (.error e, made, .finished)
    | .ok x =>
      if made.length = w then (.ok true, made ++ [x], .running s rest)
      else Gen.search tb s w (made ++ [x]) rest

/-- `w in v` after `iter(v)` (interval.py 322-324) made a fresh generator: Python's default for a class without
`__contains__`. -/
def Gen.contains (tb : Timeboard L) (w : Nat) (made : List (Workshift L)) (v : Interval L) :
    Except Err Bool × List (Workshift L) × Gen L :=
  if v.isVoid then (.ok false, made, .finished)
  else match v.dutyIdx tb .any v.schedule with
    | .error e => (.error e, made, .finished)
    | .ok (_, none) => (.ok false, made, .finished)
    | .ok (idx, some (a, b)) => Gen.search tb v.schedule w made (slice idx a b)

/-- One operation. -/
def Session.step (s : Session L) : Act L → Session L × Res
  | .interval v => ({ s with intervals := s.intervals ++ [(v, none)] }, .object s.intervals.length)
  | .workshift w => ({ s with workshifts := s.workshifts ++ [w] }, .object s.workshifts.length)
  | .generate i duty schedule => match s.intervals[i]? with
    | none => (s, .nothing)
    | some (v, _) => ({ s with generators := s.generators ++ [.fresh v duty schedule] }, .object s.generators.length)
  | .advance g => match s.generators[g]? with
    | none => (s, .nothing)
    | some gen =>
      let (out, gen') := gen.next s.tb
      { s with generators := s.generators.set g gen' }.deliver out
  | .iter i => match s.intervals[i]? with
    | none => (s, .nothing)
    | some (v, _) => ({ s with intervals := s.intervals.set i (v, some (.fresh v .any none)) }, .object i)
  | .next i => match s.intervals[i]? with
    | none => (s, .nothing)
    | some (_, none) => (s, .error .attributeError)
    | some (v, some gen) =>
      let (out, gen') := gen.next s.tb
      { s with intervals := s.intervals.set i (v, some gen') }.deliver out
  | .contains i w => match s.intervals[i]? with
    | none => (s, .nothing)
    | some (v, _) =>
      if w < s.workshifts.length then
        let (out, made, gen') := Gen.contains s.tb w s.workshifts v
        ({ s with intervals := s.intervals.set i (v, some gen'), workshifts := made },
          match out with | .error e => .error e | .ok b => .truth b)
      else (s, .nothing)
  | .equal w x =>
    if w < s.workshifts.length ∧ x < s.workshifts.length then (s, .truth (w == x)) else (s, .nothing)
  | .addSchedule name selector => match s.tb.addSchedule name selector with
    | .error e => (s, .error e)
    | .ok (_, tb') => ({ s with tb := tb' }, .done)
  | .dropSchedule schedule => match s.tb.dropSchedule schedule with
    | .error e => (s, .error e)
    | .ok tb' => ({ s with tb := tb' }, .done)

/-- `bool(v)`: Python's default for a class which defines `__len__` (interval.py 326-327) and not `__bool__`. -/
def Interval.truth (v : Interval L) : Bool := v.len != 0

/-- A sequence of operations: the objects afterwards, and what each operation gave. -/
def Session.run (s : Session L) : List (Act L) → Session L × List Res
  | [] => (s, [])
  | a :: as =>
    let (s', r) := s.step a
    let (s'', rs) := s'.run as
    (s'', r :: rs)

end TB
