import Verif.Model.Frame
/-!
# Layouts and the organizing of a frame

Models `Organizer`, `RememberingPattern`, `_skiperator`, `_Timeline.__organize` and
`_Timeline.__apply_pattern` of `timeboard/core.py`.

`L` is the type of workshift labels (any Python objects).
-/
namespace TB

/-- `itertools.cycle`: the saved elements and what is left of the current round. -/
structure Cycle (α : Type) where
  saved : List α
  rest : List α

/-- `cycle(xs)`. -/
def Cycle.start {α : Type} (xs : List α) : Cycle α := { saved := xs, rest := xs }

/-- `next(it)` of `itertools.cycle`; `none` is StopIteration (only for an empty iterable). -/
def Cycle.next {α : Type} (c : Cycle α) : Option (α × Cycle α) :=
  match c.rest with
  | x :: xs => some (x, { c with rest := xs })
  | [] => match c.saved with
    | [] => none
    | x :: xs => some (x, { c with rest := xs })

/-- The internal states (`_label_generator`) of all existing RememberingPattern objects, by object
identity: core.py 1690-1698. -/
abbrev Heap (L : Type) := Nat → Cycle L

/-- Replace the state of one RememberingPattern. -/
def Heap.set {L : Type} (h : Heap L) (i : Nat) (c : Cycle L) : Heap L := fun j => if j = i then c else h j

/-- A pattern given as a structure element: an ordinary iterable of labels, or the RememberingPattern with
the given identity (core.py 1661-1717). -/
inductive Pattern (L : Type) where
  | list (xs : List L)
  | rp (id : Nat)

/-- The iterator `cycle(values)` created in `_skiperator` (core.py 85).  For an ordinary iterable this is a
fresh cycle; for a RememberingPattern (which is its own endless iterator, core.py 1697-1704) every `next`
is passed to the shared object. -/
inductive Src (L : Type) where
  | fresh (c : Cycle L)
  | shared (id : Nat)

/-- `next` of the iterator, with its effect on the RememberingPattern objects; `none` is StopIteration. -/
def Src.next {L : Type} (s : Src L) (h : Heap L) : Option (L × Src L × Heap L) :=
  match s with
  | .fresh c => match c.next with
    | none => none
    | some (x, c') => some (x, .fresh c', h)
  | .shared i => match (h i).next with
    | none => none
    | some (x, c') => some (x, .shared i, h.set i c')

/-- `n` successive calls of `next`. -/
def Src.take {L : Type} : Nat → Src L → Heap L → Option (List L × Src L × Heap L)
  | 0, s, h => some ([], s, h)
  | n + 1, s, h => match s.next h with
    | none => none
    | some (x, s', h') => match Src.take n s' h' with
      | none => none
      | some (xs, s'', h'') => some (x :: xs, s'', h'')

/-- The iterator made of a pattern. -/
def Pattern.src {L : Type} : Pattern L → Src L
  | .list xs => .fresh (Cycle.start xs)
  | .rp i => .shared i

/-- The first `n` (at least one) elements of `_skiperator(values, skip)`: core.py 51-85.  `dropwhile` with the counter
discards the first `skip` elements of the cycle when the first element is requested. -/
def skiperatorTake {L : Type} (p : Pattern L) (skip n : Nat) (h : Heap L) : Option (List L × Heap L) :=
  match Src.take skip p.src h with
  | none => none
  | some (_, s', h') => match Src.take n s' h' with
    | none => none
    | some (xs, _, h'') => some (xs, h'')

/-- The temporary arrays `_ws_labels` and `_ws_compound_mask` (core.py 621-623), as functions of the index
of a base unit, and the states of RememberingPatterns. -/
structure TLState (L : Type) where
  labels : Int → L
  mask : Int → Bool
  heap : Heap L

/-- What a layout element does with a span. -/
abbrev Step (L : Type) := Span → TLState L → Except Err (TLState L)

/-- `_Timeline.__apply_pattern`: core.py 662-702. -/
def applyPattern {L : Type} (p : Pattern L) : Step L := fun s st =>
  if s.skipLeft < 0 then .error .outOfBounds
  else match skiperatorTake p s.skipLeft.toNat (s.last + 1 - s.first).toNat st.heap with
    | none => .ok st
    | some (xs, h') => .ok
        { st with
          labels := fun i =>
            if s.first ≤ i ∧ i ≤ s.last then (xs[(i - s.first).toNat]?).getD (st.labels i) else st.labels i
          heap := h' }

/-- Making a compound workshift of a span: core.py 749-754. -/
def makeCompound {L : Type} (l : L) : Step L := fun s st => .ok
  { st with
    labels := fun i => if i = s.first then l else st.labels i
    mask := fun i => if s.first + 1 ≤ i ∧ i ≤ s.last then false else st.mask i }

/-- How an Organizer cuts spans: exactly one of `marker`, `marks` (core.py 1344-1353). -/
inductive Cut where
  | marker (m : Marker)
  | marks (ts : List Time)

/-- Elements of a structure (core.py 741-754), and layouts of a timeboard:
an Organizer whose structure is an ordinary iterable, an Organizer whose structure is a
RememberingPattern of labels, a pattern, or a single label.
Simplification: a RememberingPattern holds labels only (as documented, core.py 1661-1680). -/
inductive Layout (L : Type) where
  | organizer (cut : Cut) (elems : List (Layout L))
  | organizerRP (cut : Cut) (id : Nat)
  | pattern (p : Pattern L)
  | label (l : L)

/-- core.py 729-732. -/
def Frame.cutSpan (f : Frame) (c : Cut) (s : Span) : Except Err (List Span) :=
  match c with
  | .marker m => f.partitionWithMarker s m
  | .marks ts => f.partitionAtMarks s ts

/-- `for span, layout in zip(span_seq, cycle(structure))`: core.py 734-754. -/
def zipRun {L : Type} : List Span → Cycle (Step L) → TLState L → Except Err (TLState L)
  | [], _, st => .ok st
  | s :: ss, c, st => match c.next with
    | none => .ok st
    | some (step, c') => match step s st with
      | .error e => .error e
      | .ok st' => zipRun ss c' st'

/-- The same loop when the structure is a RememberingPattern: each label drawn makes a compound
workshift. -/
def zipRunRP {L : Type} : List Span → Nat → TLState L → Except Err (TLState L)
  | [], _, st => .ok st
  | s :: ss, i, st => match (st.heap i).next with
    | none => .ok st
    | some (l, c') => match makeCompound l s { st with heap := st.heap.set i c' } with
      | .error e => .error e
      | .ok st' => zipRunRP ss i st'

mutual
/-- `_Timeline.__organize` for organizers, and the treatment of the other layout elements:
core.py 704-754. -/
def Layout.run {L : Type} (f : Frame) : Layout L → Step L
  | .organizer cut elems => fun s st =>
    match f.cutSpan cut s with
    | .error e => .error e
    | .ok spans => zipRun spans (Cycle.start (Layout.runAll f elems)) st
  | .organizerRP cut i => fun s st =>
    match f.cutSpan cut s with
    | .error e => .error e
    | .ok spans => zipRunRP spans i st
  | .pattern p => applyPattern p
  | .label l => makeCompound l

/-- The elements of a structure, each as its effect. -/
def Layout.runAll {L : Type} (f : Frame) : List (Layout L) → List (Step L)
  | [] => []
  | l :: ls => Layout.run f l :: Layout.runAll f ls
end

end TB
