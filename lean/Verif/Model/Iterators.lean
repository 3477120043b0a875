import Verif.Model.Timeboard
/-!
# Iterators of labels as patterns

A pattern may be given as "an iterable or iterator of labels" (core.py 1283-1286): a generator, `iter([...])`, `itertools.cycle(...)`.  An
iterator is an object with a state, like a RememberingPattern, but it may come to an end.  `Model/Layout.lean` treats the objects which
do not; here an object of the heap (`Heap`, `Pattern.rp`, `Layout.organizerRP`) is any iterator of labels.  Nothing else is changed:
`Timeboard.newIt` is `Timeboard.new` with `Layout.runIt` in the place of `Layout.run`.

An iterator which comes to an end is a `Cycle` with nothing saved: `Cycle.next` hands out what is left and then is StopIteration.
-/
namespace TB
variable {L : Type}

/-- `iter(xs)`: an iterator which hands out the elements once. -/
def Cycle.once (xs : List L) : Cycle L := { saved := [], rest := xs }

/-- `itertools.cycle(values)` as created in `_skiperator` (core.py 85) and in `__organize` (core.py 734).
`passing id seen`: `next` is passed to the iterator `id`; the elements seen so far are saved.
`repeating c`: the values are known and repeated, either because they are an ordinary iterable or because the iterator has come to an end. -/
inductive Wrap (L : Type) where
  | passing (id : Nat) (seen : List L)
  | repeating (c : Cycle L)

/-- `next` of the cycle, with its effect on the iterators; `none` is StopIteration. -/
def Wrap.next (w : Wrap L) (h : Heap L) : Option (L × Wrap L × Heap L) :=
  match w with
  | .repeating c => match c.next with
    | none => none
    | some (x, c') => some (x, .repeating c', h)
  | .passing i seen => match (h i).next with
    | some (x, c') => some (x, .passing i (seen ++ [x]), h.set i c')
    | none => match (Cycle.start seen).next with
      | none => none
      | some (x, c') => some (x, .repeating c', h)

/-- `n` successive calls of `next`. -/
def Wrap.take : Nat → Wrap L → Heap L → Option (List L × Wrap L × Heap L)
  | 0, w, h => some ([], w, h)
  | n + 1, w, h => match w.next h with
    | none => none
    | some (x, w', h') => match Wrap.take n w' h' with
      | none => none
      | some (xs, w'', h'') => some (x :: xs, w'', h'')

/-- `cycle(pattern)`. -/
def Pattern.wrap : Pattern L → Wrap L
  | .list xs => .repeating (Cycle.start xs)
  | .rp i => .passing i []

/-- The first `n` (at least one) elements of `_skiperator(values, skip)`: core.py 51-85. -/
def skiperatorTakeIt (p : Pattern L) (skip n : Nat) (h : Heap L) : Option (List L × Heap L) :=
  match Wrap.take skip p.wrap h with
  | none => none
  | some (_, w', h') => match Wrap.take n w' h' with
    | none => none
    | some (xs, _, h'') => some (xs, h'')

/-- `_Timeline.__apply_pattern`: core.py 662-702.  StopIteration can only be raised by the first call of `next`, when nothing has been
drawn. -/
def applyPatternIt (p : Pattern L) : Step L := fun s st =>
  if s.skipLeft < 0 then .error .outOfBounds
  else match skiperatorTakeIt p s.skipLeft.toNat (s.last + 1 - s.first).toNat st.heap with
    | none => .ok st
    | some (xs, h') => .ok
        { st with
          labels := fun i =>
            if s.first ≤ i ∧ i ≤ s.last then (xs[(i - s.first).toNat]?).getD (st.labels i) else st.labels i
          heap := h' }

/-- `for span, layout in zip(span_seq, cycle(structure))` where the structure is an iterator of labels: core.py 734-754. -/
def zipRunIt : List Span → Wrap L → TLState L → Except Err (TLState L)
  | [], _, st => .ok st
  | s :: ss, w, st => match w.next st.heap with
    | none => .ok st
    | some (l, w', h') => match makeCompound l s { st with heap := h' } with
      | .error e => .error e
      | .ok st' => zipRunIt ss w' st'

mutual
/-- `_Timeline.__organize`: core.py 704-754. -/
def Layout.runIt (f : Frame) : Layout L → Step L
  | .organizer cut elems => fun s st =>
    match f.cutSpan cut s with
    | .error e => .error e
    | .ok spans => zipRun spans (Cycle.start (Layout.runItAll f elems)) st
  | .organizerRP cut i => fun s st =>
    match f.cutSpan cut s with
    | .error e => .error e
    | .ok spans => zipRunIt spans (.passing i []) st
  | .pattern p => applyPatternIt p
  | .label l => makeCompound l

/-- The elements of a structure, each as its effect. -/
def Layout.runItAll (f : Frame) : List (Layout L) → List (Step L)
  | [] => []
  | l :: ls => Layout.runIt f l :: Layout.runItAll f ls
end

/-- `_Timeline.__init__` with an organizer: core.py 616-650. -/
def Timeline.newIt (frame : Frame) (o : Layout L) (refEnd : Bool) (data : L) (heap : Heap L) : Except Err (Timeline L × Heap L) :=
  match Layout.runIt frame o { first := 0, last := (frame.n : Int) - 1 }
      { labels := fun _ => data, mask := fun _ => true, heap := heap } with
  | .error e => .error e
  | .ok st =>
    let idx := nonzeroMask st.mask frame.n
    .ok ({ frame := frame, wsIdx := idx, labels := idx.map st.labels
           frameband := maskedCounter st.mask frame.n 0 0, refEnd := refEnd }, st.heap)

/-- `Timeboard.__init__`: timeboard.py 164-226.  An iterator in the place of the layout has no `len` (timeboard.py 176), TypeError, like
a RememberingPattern (`makeOrganizer`).  The text for `repr` (core.py 1375-1440) is made without drawing from iterators. -/
def Timeboard.newIt (a : Args L) (heap : Heap L) : Except Err (Timeboard L × Heap L) :=
  match makeOrganizer a.layout with
  | .error e => .error e
  | .ok org =>
    if a.worktimeSource ∉ ["duration", "labels"] then .error .valueError
    else match Frame.new a.freq a.start a.stop with
      | .error e => .error e
      | .ok frame => match Timeline.newIt frame org a.refEnd a.defaultLabel heap with
        | .error e => .error e
        | .ok (tl0, heap') => match tl0.amend a.amendments with
          | .error e => .error e
          | .ok tl =>
            let name := a.defaultName.getD "on_duty"
            let sch := Schedule.new tl name a.selector
            .ok ({ timeline := tl, defaultSchedule := sch, schedules := [(name, sch)]
                   worktimeSource := a.worktimeSource }, heap')

end TB
