import Verif.Model.Iterators
import Verif.Model.ByHand
/-!
# RememberingPatterns made of iterators and of each other

`RememberingPattern(labels)` takes "an iterable of workshift labels" (core.py 1668-1669) and keeps `cycle(labels)` (core.py 1690-1692).  If
`labels` are a list, the cycle repeats the list (`Model/Layout.lean`).  If `labels` are an iterator (a generator and the like, or another
RememberingPattern, core.py 1697-1704), the cycle takes labels from the iterator, each when it is asked for, and begins to repeat what it
has got when the iterator has come to an end.  Here objects of this kind are used in layouts and by hand; the functions follow
`Model/Iterators.lean` and, for failures, `Model/Attempt.lean`.
-/
namespace TB
variable {L : Type}

/-- An iterator of labels.  `own c`: `iter(xs)` (`Cycle.once`), or a `cycle` which has its labels in hand.  `passing src seen`: a
RememberingPattern made of the object `src`, which has handed out `seen` so far: core.py 1692. -/
inductive Feed (L : Type) where
  | own (c : Cycle L)
  | passing (src : Nat) (seen : List L)

/-- All iterators and RememberingPatterns, numbered in the order in which they were made. -/
abbrev Feeds (L : Type) := Nat → Feed L

/-- Replace the state of one object. -/
def Feeds.set (o : Feeds L) (i : Nat) (x : Feed L) : Feeds L := fun j => if j = i then x else o j

/-- `next(obj)`: core.py 1697-1701; `none` is StopIteration.  A RememberingPattern can be made of an object only which was made before. -/
def Feeds.next (o : Feeds L) (id : Nat) : Option (L × Feeds L) :=
  match o id with
  | .own c => match c.next with
    | none => none
    | some (x, c') => some (x, o.set id (.own c'))
  | .passing src seen =>
    if src < id then match o.next src with
      | some (x, o') => some (x, o'.set id (.passing src (seen ++ [x])))
      | none => match (Cycle.start seen).next with
        | none => none
        | some (x, c') => some (x, o.set id (.own c'))
    else none
termination_by id

/-- `next` of the cycle made in `_skiperator` (core.py 85) and in `__organize` (core.py 734), see `Wrap.next`. -/
def Wrap.nextO (w : Wrap L) (o : Feeds L) : Option (L × Wrap L × Feeds L) :=
  match w with
  | .repeating c => match c.next with
    | none => none
    | some (x, c') => some (x, .repeating c', o)
  | .passing i seen => match o.next i with
    | some (x, o') => some (x, .passing i (seen ++ [x]), o')
    | none => match (Cycle.start seen).next with
      | none => none
      | some (x, c') => some (x, .repeating c', o)

/-- `n` successive calls of `next`. -/
def Wrap.takeO : Nat → Wrap L → Feeds L → Option (List L × Wrap L × Feeds L)
  | 0, w, o => some ([], w, o)
  | n + 1, w, o => match w.nextO o with
    | none => none
    | some (x, w', o') => match Wrap.takeO n w' o' with
      | none => none
      | some (xs, w'', o'') => some (x :: xs, w'', o'')

/-- The first `n` (at least one) elements of `_skiperator(values, skip)`: core.py 51-85. -/
def skiperatorTakeO (p : Pattern L) (skip n : Nat) (o : Feeds L) : Option (List L × Feeds L) :=
  match Wrap.takeO skip p.wrap o with
  | none => none
  | some (_, w', o') => match Wrap.takeO n w' o' with
    | none => none
    | some (xs, _, o'') => some (xs, o'')

/-- The temporary arrays (core.py 621-623) and the objects, see `TLState`. -/
structure ObjState (L : Type) where
  labels : Int → L
  mask : Int → Bool
  objs : Feeds L

/-- What a layout element does with a span: the state when it is done or gives up, and the exception. -/
abbrev ObjTry (L : Type) := Span → ObjState L → ObjState L × Option Err

/-- `_Timeline.__apply_pattern`: core.py 662-702.  StopIteration can only be raised by the first call of `next`, when nothing has been
drawn. -/
def applyPatternO (p : Pattern L) : ObjTry L := fun s st =>
  if s.skipLeft < 0 then (st, some .outOfBounds)
  else match skiperatorTakeO p s.skipLeft.toNat (s.last + 1 - s.first).toNat st.objs with
    | none => (st, none)
    | some (xs, o') =>
        ({ labels := fun i => if s.first ≤ i ∧ i ≤ s.last then (xs[(i - s.first).toNat]?).getD (st.labels i) else st.labels i
           mask := st.mask
           objs := o' }, none)

/-- Making a compound workshift of a span: core.py 749-754. -/
def makeCompoundO (l : L) : ObjTry L := fun s st =>
  ({ labels := fun i => if i = s.first then l else st.labels i
     mask := fun i => if s.first + 1 ≤ i ∧ i ≤ s.last then false else st.mask i
     objs := st.objs }, none)

/-- `for span, layout in zip(span_seq, cycle(structure))`: core.py 734-754. -/
def zipO : List Span → Cycle (ObjTry L) → ObjState L → ObjState L × Option Err
  | [], _, st => (st, none)
  | s :: ss, c, st => match c.next with
    | none => (st, none)
    | some (step, c') => match step s st with
      | (st', some e) => (st', some e)
      | (st', none) => zipO ss c' st'

/-- The same loop when the structure is an iterator of labels. -/
def zipLabelsO : List Span → Wrap L → ObjState L → ObjState L × Option Err
  | [], _, st => (st, none)
  | s :: ss, w, st => match w.nextO st.objs with
    | none => (st, none)
    | some (l, w', o') => match makeCompoundO l s { st with objs := o' } with
      | (st', some e) => (st', some e)
      | (st', none) => zipLabelsO ss w' st'

mutual
/-- `_Timeline.__organize` and the treatment of the other layout elements: core.py 704-754. -/
def Layout.runO (f : Frame) : Layout L → ObjTry L
  | .organizer cut elems => fun s st =>
    match f.cutSpan cut s with
    | .error e => (st, some e)
    | .ok spans => zipO spans (Cycle.start (Layout.runOAll f elems)) st
  | .organizerRP cut i => fun s st =>
    match f.cutSpan cut s with
    | .error e => (st, some e)
    | .ok spans => zipLabelsO spans (.passing i []) st
  | .pattern p => applyPatternO p
  | .label l => makeCompoundO l

/-- The elements of a structure, each as its effect. -/
def Layout.runOAll (f : Frame) : List (Layout L) → List (ObjTry L)
  | [] => []
  | l :: ls => Layout.runO f l :: Layout.runOAll f ls
end

/-- `Timeboard.__init__`: timeboard.py 164-226: the objects afterwards, and the timeboard or the exception, see `Timeboard.attempt`. -/
def Timeboard.attemptO (a : Args L) (objs : Feeds L) : Feeds L × Except Err (Timeboard L) :=
  match makeOrganizer a.layout with
  | .error e => (objs, .error e)
  | .ok org =>
    if a.worktimeSource ∉ ["duration", "labels"] then (objs, .error .valueError)
    else match Frame.new a.freq a.start a.stop with
      | .error e => (objs, .error e)
      | .ok frame =>
        match Layout.runO frame org { first := 0, last := (frame.n : Int) - 1 }
            { labels := fun _ => a.defaultLabel, mask := fun _ => true, objs := objs } with
        | (st, some e) => (st.objs, .error e)
        | (st, none) =>
          let idx := nonzeroMask st.mask frame.n
          let tl0 : Timeline L := { frame := frame, wsIdx := idx, labels := idx.map st.labels
                                    frameband := maskedCounter st.mask frame.n 0 0, refEnd := a.refEnd }
          match tl0.amend a.amendments with
          | .error e => (st.objs, .error e)
          | .ok tl =>
            let name := a.defaultName.getD "on_duty"
            let sch := Schedule.new tl name a.selector
            (st.objs, .ok { timeline := tl, defaultSchedule := sch, schedules := [(name, sch)]
                            worktimeSource := a.worktimeSource })

/-- What an object is: a RememberingPattern of a list, an iterator, a RememberingPattern of the object `src` (`_labels`, core.py 1691). -/
inductive ObjKind (L : Type) where
  | list (xs : List L)
  | iterator
  | of (src : Nat)

/-- What a program does with such objects; they are numbered in the order in which they were made. -/
inductive ObjStep (L : Type) where
  /-- `RememberingPattern([...])`: core.py 1690-1692 -/
  | list (labels : List L)
  /-- `iter([...])`, a generator: an object of Python -/
  | iterator (labels : List L)
  /-- `RememberingPattern(obj)`: core.py 1690-1692 -/
  | remember (src : Nat)
  /-- `next(obj)`, `rp.next()`: core.py 1697-1701 -/
  | draw (id : Nat)
  /-- `obj[i]`: core.py 1706-1707 -/
  | item (id : Nat) (i : Int)
  /-- `obj.length`: core.py 1709-1711 -/
  | length (id : Nat)
  /-- `bool(obj)`: core.py 1713-1717 -/
  | truth (id : Nat)
  /-- `Timeboard(...)`: timeboard.py 164-226 -/
  | build (a : Args L)

/-- The objects made so far: what they are, and their states. -/
structure ObjWorld (L : Type) where
  kinds : List (ObjKind L)
  objs : Feeds L

/-- Before anything has been made. -/
def ObjWorld.empty : ObjWorld L := { kinds := [], objs := fun _ => .own (Cycle.once []) }

/-- `rp[i]`, i.e. `self._labels[i]`: core.py 1706-1707.  An iterator has no items, TypeError. -/
def itemOf (kinds : List (ObjKind L)) (id : Nat) (i : Int) : Except Err L :=
  match kinds[id]? with
  | some (.list xs) => match pyGet? xs i with
    | none => .error .indexError
    | some l => .ok l
  | some (.of src) => if src < id then itemOf kinds src i else .error .typeError
  | _ => .error .typeError
termination_by id

/-- One step: core.py 1690-1717, timeboard.py 164-226.  An exception does not end the program.  `len(self._labels)` of an iterator or of a
RememberingPattern is a TypeError (core.py 1711); an iterator has no attribute `length`, and is true.  Simplification: a program refers to objects which exist only (to others there is a TypeError, StopIteration or nothing here). -/
def ObjWorld.step (o : ObjWorld L) : ObjStep L → ObjWorld L × RPAnswer L
  | .list xs => ({ kinds := o.kinds ++ [.list xs], objs := o.objs.set o.kinds.length (.own (Cycle.start xs)) }, .object o.kinds.length)
  | .iterator xs => ({ kinds := o.kinds ++ [.iterator], objs := o.objs.set o.kinds.length (.own (Cycle.once xs)) }, .object o.kinds.length)
  | .remember src =>
    if src < o.kinds.length then ({ kinds := o.kinds ++ [.of src], objs := o.objs.set o.kinds.length (.passing src []) }, .object o.kinds.length)
    else (o, .raised .typeError)
  | .draw id => match o.objs.next id with
    | none => (o, .stopIteration)
    | some (l, objs) => ({ o with objs := objs }, .label l)
  | .item id i => match itemOf o.kinds id i with
    | .error e => (o, .raised e)
    | .ok l => (o, .label l)
  | .length id => match o.kinds[id]? with
    | some (.list xs) => (o, .number xs.length)
    | some (.of _) => (o, .raised .typeError)
    | _ => (o, .raised .attributeError)
  | .truth id => match o.kinds[id]? with
    | some (.list xs) => (o, .flag (decide (0 < xs.length)))
    | some (.of _) => (o, .raised .typeError)
    | _ => (o, .flag true)
  | .build a => match Timeboard.attemptO a o.objs with
    | (objs, .error e) => ({ o with objs := objs }, .raised e)
    | (objs, .ok tb) => ({ o with objs := objs }, .timeboard tb)

/-- A program: the objects afterwards and all answers. -/
def ObjWorld.run : List (ObjStep L) → ObjWorld L → ObjWorld L × List (RPAnswer L)
  | [], o => (o, [])
  | s :: ss, o =>
    let (o', x) := o.step s
    let (o'', xs) := ObjWorld.run ss o'
    (o'', x :: xs)

end TB
