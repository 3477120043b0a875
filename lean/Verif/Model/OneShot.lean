import Verif.Model.Iterators
/-!
# Iterators in all places of a layout

`Organizer(marks=...)`, `Organizer(structure=...)` and `Marker(at=...)` take any iterable (core.py 1277-1290, 1350-1355, 1624-1626), and so take
iterators (generators and the like), whose elements are there only once.  In `Model/Iterators.lean` patterns, and structures of labels, may be
iterators; here marks, the specifications of `at`, and structures with organizers and patterns among their elements may be iterators too.
-/
namespace TB
variable {L : Type}

/-- A layout, as `Layout`.  In an organizer `cutIt = some id` says that the marks, or the specifications of `at`, are the elements of the
iterator with the identity `id`; `elemsIt = some id` says so of the structure.  The elements written down are all elements of the iterator, those
drawn before included.  Two mentions of the same identity are meant to have the same elements. -/
inductive OnceLayout (L : Type) where
  | organizer (cut : Cut) (cutIt : Option Nat) (elems : List (OnceLayout L)) (elemsIt : Option Nat)
  | organizerRP (cut : Cut) (cutIt : Option Nat) (id : Nat)
  | pattern (p : Pattern L)
  | label (l : L)

/-- How many elements have been drawn from each iterator. -/
abbrev Drawn := Nat → Nat

/-- Draw elements of an iterator. -/
def Drawn.set (u : Drawn) (id n : Nat) : Drawn := fun j => if j = id then n else u j

/-- The elements which are left. -/
def leftOf {α : Type} (it : Option Nat) (u : Drawn) (xs : List α) : List α :=
  match it with
  | none => xs
  | some id => xs.drop (u id)

/-- Marks and specifications of `at` are drawn all at once: core.py 433-438, 546-547. -/
def Drawn.all {α : Type} (u : Drawn) (it : Option Nat) (xs : List α) : Drawn :=
  match it with
  | none => u
  | some id => u.set id (max (u id) xs.length)

/-- From a structure one element is drawn for each span, but no more than there are: `zip(span_seq, cycle(structure))`, core.py 734-740. -/
def Drawn.upTo {α : Type} (u : Drawn) (it : Option Nat) (n : Nat) (xs : List α) : Drawn :=
  match it with
  | none => u
  | some id => u.set id (u id + min n (xs.drop (u id)).length)

/-- `for kwargs in marker.at` (core.py 433) when there are none: no points are added. -/
def noPoints : Frame → Freq → Except Err (List Time) := fun _ _ => .ok []

/-- What an organizer sees of its `marks` or of `at` of its marker.  An iterator which has no elements left is still true (`if marker.at`, core.py
421), so that the marker is not taken for one without `at`. -/
def Cut.seen (c : Cut) (it : Option Nat) (u : Drawn) : Cut :=
  match c, it with
  | .marks ts, it => .marks (leftOf it u ts)
  | .marker m, none => .marker m
  | .marker m, some id => .marker { m with ats := if m.ats.drop (u id) = [] then [noPoints] else m.ats.drop (u id) }

/-- What has been drawn after the span was partitioned: core.py 729-732. -/
def Cut.use (c : Cut) (it : Option Nat) (u : Drawn) : Drawn :=
  match c with
  | .marks ts => u.all it ts
  | .marker m => u.all it m.ats

/-- The arrays and patterns (`TLState`), and what has been drawn from the other iterators. -/
structure OnceState (L : Type) where
  tl : TLState L
  drawn : Drawn

/-- What a layout element does with a span. -/
abbrev OnceStep (L : Type) := Span → OnceState L → Except Err (OnceState L)

/-- An element which uses no iterators but those of `Model/Iterators.lean`. -/
def Step.once (step : Step L) : OnceStep L := fun s st => match step s st.tl with
  | .error e => .error e
  | .ok tl => .ok { st with tl := tl }

/-- `for span, layout in zip(span_seq, cycle(structure))`: core.py 734-754. -/
def zipOnce : List Span → Cycle (OnceStep L) → OnceState L → Except Err (OnceState L)
  | [], _, st => .ok st
  | s :: ss, c, st => match c.next with
    | none => .ok st
    | some (step, c') => match step s st with
      | .error e => .error e
      | .ok st' => zipOnce ss c' st'

mutual
/-- `_Timeline.__organize`: core.py 704-754.  The elements of a structure are noted as drawn before they are applied; no element of an iterator
contains an organizer with the same iterator. -/
def OnceLayout.run (f : Frame) : OnceLayout L → OnceStep L
  | .organizer cut cutIt elems elemsIt => fun s st =>
    match f.cutSpan (cut.seen cutIt st.drawn) s with
    | .error e => .error e
    | .ok spans =>
      let u := cut.use cutIt st.drawn
      zipOnce spans (Cycle.start (leftOf elemsIt u (OnceLayout.runAll f elems)))
        { st with drawn := u.upTo elemsIt spans.length (OnceLayout.runAll f elems) }
  | .organizerRP cut cutIt i => fun s st =>
    match f.cutSpan (cut.seen cutIt st.drawn) s with
    | .error e => .error e
    | .ok spans => match zipRunIt spans (.passing i []) st.tl with
      | .error e => .error e
      | .ok tl => .ok { tl := tl, drawn := cut.use cutIt st.drawn }
  | .pattern p => (applyPatternIt p).once
  | .label l => (makeCompound l).once

/-- The elements of a structure, each as its effect. -/
def OnceLayout.runAll (f : Frame) : List (OnceLayout L) → List (OnceStep L)
  | [] => []
  | l :: ls => OnceLayout.run f l :: OnceLayout.runAll f ls
end

/-- timeboard.py 173-184, see `makeOrganizer`. -/
def makeOrganizerOnce : OnceLayout L → Except Err (OnceLayout L)
  | .organizer c ci e ei => .ok (.organizer c ci e ei)
  | .organizerRP c ci i => .ok (.organizerRP c ci i)
  | .pattern (.list xs) => .ok (.organizer (.marks []) none [.pattern (.list xs)] none)
  | .pattern (.rp _) => .error .typeError
  | .label _ => .error .typeError

/-- `Timeboard.__init__`: timeboard.py 164-226, with the layout `l` in the place of `a.layout`.  Returns also the patterns and what has been
drawn from the other iterators. -/
def Timeboard.newOnce (a : Args L) (l : OnceLayout L) (heap : Heap L) (u : Drawn) : Except Err (Timeboard L × Heap L × Drawn) :=
  match makeOrganizerOnce l with
  | .error e => .error e
  | .ok org =>
    if a.worktimeSource ∉ ["duration", "labels"] then .error .valueError
    else match Frame.new a.freq a.start a.stop with
      | .error e => .error e
      | .ok frame => match OnceLayout.run frame org { first := 0, last := (frame.n : Int) - 1 }
          { tl := { labels := fun _ => a.defaultLabel, mask := fun _ => true, heap := heap }, drawn := u } with
        | .error e => .error e
        | .ok st =>
          let idx := nonzeroMask st.tl.mask frame.n
          let tl0 : Timeline L := { frame := frame, wsIdx := idx, labels := idx.map st.tl.labels
                                    frameband := maskedCounter st.tl.mask frame.n 0 0, refEnd := a.refEnd }
          match tl0.amend a.amendments with
          | .error e => .error e
          | .ok tl =>
            let name := a.defaultName.getD "on_duty"
            let sch := Schedule.new tl name a.selector
            .ok ({ timeline := tl, defaultSchedule := sch, schedules := [(name, sch)]
                   worktimeSource := a.worktimeSource }, st.tl.heap, st.drawn)

end TB
