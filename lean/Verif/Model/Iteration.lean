import Verif.Model.Interval
/-!
# Iterating over an Interval object

Models the iterator protocol of `Interval`, `timeboard/interval.py` 316-324: `__iter__` stores a generator in an
attribute of the interval and returns the interval itself; `__next__` advances the stored generator.
-/
namespace TB

variable {L : Type}

/-- A generator returned by `Interval.workshifts` (interval.py 267-314) which is not yet exhausted or closed: the
workshifts it has not yet yielded.  Simplification: an exception is raised by the first advance, even if the
generator would yield some workshifts before that (for intervals of a timeboard there is no exception at all). -/
abbrev WsGenerator (L : Type) := Except Err (List (Workshift L))

/-- An `Interval` object with its attribute `_ws_generator_activated` (interval.py 317, 323); `none` means that
the attribute does not exist: the constructor (interval.py 11-63) does not create it. -/
structure IntervalObj (L : Type) where
  interval : Interval L
  gen : Option (WsGenerator L)

/-- `Interval.__iter__`: interval.py 322-324.  The object returned is the same one. -/
def IntervalObj.iter (o : IntervalObj L) (tb : Timeboard L) : IntervalObj L :=
  { o with gen := some (o.interval.workshifts tb .any) }

/-- `Interval.__next__` (and `next`): interval.py 316-320; `none` is StopIteration.  After an exception the generator
is finished. -/
def IntervalObj.next (o : IntervalObj L) : Except Err (Option (Workshift L)) × IntervalObj L :=
  match o.gen with
  | none => (.error .attributeError, o)
  | some (.error e) => (.error e, { o with gen := some (.ok []) })
  | some (.ok []) => (.ok none, o)
  | some (.ok (w :: ws)) => (.ok (some w), { o with gen := some (.ok ws) })

/-- The repeated part of Python's statement `for w in v: out.append(body(w))` where `body` may use and change the
object `v`.  `none`: not finished after `fuel` rounds. -/
def IntervalObj.rounds {β : Type} (body : Workshift L → IntervalObj L → Except Err β × IntervalObj L) :
    Nat → IntervalObj L → Option (Except Err (List β) × IntervalObj L)
  | 0, _ => none
  | fuel + 1, o =>
    match o.next with
    | (.error e, o') => some (.error e, o')
    | (.ok none, o') => some (.ok [], o')
    | (.ok (some w), o') =>
      match body w o' with
      | (.error e, o'') => some (.error e, o'')
      | (.ok b, o'') =>
        match IntervalObj.rounds body fuel o'' with
        | none => none
        | some (.error e, o₃) => some (.error e, o₃)
        | some (.ok bs, o₃) => some (.ok (b :: bs), o₃)

/-- `[body(w) for w in v]`, the statement `for` over an Interval object. -/
def IntervalObj.forLoop {β : Type} (o : IntervalObj L) (tb : Timeboard L)
    (body : Workshift L → IntervalObj L → Except Err β × IntervalObj L) (fuel : Nat) :
    Option (Except Err (List β) × IntervalObj L) :=
  IntervalObj.rounds body fuel (o.iter tb)

/-- `[(a, b) for b in v]` as the body of an outer loop over the same object (RuntimeError stands for lack of
fuel). -/
def IntervalObj.pairsWith (tb : Timeboard L) (fuel : Nat) (a : Workshift L) (o : IntervalObj L) :
    Except Err (List (Workshift L × Workshift L)) × IntervalObj L :=
  match o.forLoop tb (fun b o' => (.ok (a, b), o')) fuel with
  | none => (.error .runtimeError, o)
  | some r => r

end TB
