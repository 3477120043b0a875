import Verif.Model.Timeboard
/-!
# Constructions which may fail midway

`Timeboard.new` (timeboard.py 164-226) says what becomes of the RememberingPatterns of a layout when a timeboard has been
constructed.  Python raises exceptions in the middle of the work: what has been drawn from a RememberingPattern before that is
gone.  The functions of this module follow the same code (core.py 662-754, timeboard.py 164-226) and return the state at the
moment when the construction was completed or given up, together with the exception if there was one.
-/
namespace TB

/-- What a layout element does with a span: the state when it is done or gives up, and the exception. -/
abbrev Try (L : Type) := Span → TLState L → TLState L × Option Err

/-- `_Timeline.__apply_pattern`: core.py 662-702. The exception precedes the drawing. -/
def applyPatternTry {L : Type} (p : Pattern L) : Try L := fun s st =>
  if s.skipLeft < 0 then (st, some .outOfBounds)
  else match skiperatorTake p s.skipLeft.toNat (s.last + 1 - s.first).toNat st.heap with
    | none => (st, none)
    | some (xs, h') =>
        ({ st with
          labels := fun i =>
            if s.first ≤ i ∧ i ≤ s.last then (xs[(i - s.first).toNat]?).getD (st.labels i) else st.labels i
          heap := h' }, none)

/-- Making a compound workshift of a span: core.py 749-754. -/
def makeCompoundTry {L : Type} (l : L) : Try L := fun s st =>
  ({ st with
    labels := fun i => if i = s.first then l else st.labels i
    mask := fun i => if s.first + 1 ≤ i ∧ i ≤ s.last then false else st.mask i }, none)

/-- `for span, layout in zip(span_seq, cycle(structure))`: core.py 734-754. An exception ends the loop. -/
def zipTry {L : Type} : List Span → Cycle (Try L) → TLState L → TLState L × Option Err
  | [], _, st => (st, none)
  | s :: ss, c, st => match c.next with
    | none => (st, none)
    | some (step, c') => match step s st with
      | (st', some e) => (st', some e)
      | (st', none) => zipTry ss c' st'

/-- The same loop when the structure is a RememberingPattern. -/
def zipTryRP {L : Type} : List Span → Nat → TLState L → TLState L × Option Err
  | [], _, st => (st, none)
  | s :: ss, i, st => match (st.heap i).next with
    | none => (st, none)
    | some (l, c') => match makeCompoundTry l s { st with heap := st.heap.set i c' } with
      | (st', some e) => (st', some e)
      | (st', none) => zipTryRP ss i st'

mutual
/-- `_Timeline.__organize` and the treatment of the other layout elements: core.py 704-754. -/
def Layout.attempt {L : Type} (f : Frame) : Layout L → Try L
  | .organizer cut elems => fun s st =>
    match f.cutSpan cut s with
    | .error e => (st, some e)
    | .ok spans => zipTry spans (Cycle.start (Layout.attemptAll f elems)) st
  | .organizerRP cut i => fun s st =>
    match f.cutSpan cut s with
    | .error e => (st, some e)
    | .ok spans => zipTryRP spans i st
  | .pattern p => applyPatternTry p
  | .label l => makeCompoundTry l

/-- The elements of a structure, each as its effect. -/
def Layout.attemptAll {L : Type} (f : Frame) : List (Layout L) → List (Try L)
  | [] => []
  | l :: ls => Layout.attempt f l :: Layout.attemptAll f ls
end

/-- `Timeboard.__init__`: timeboard.py 164-226: the states of the RememberingPatterns afterwards, and the timeboard or the
exception.  `amend` and the making of the schedule (timeboard.py 205, 210-213) come after the layout has been applied. -/
def Timeboard.attempt {L : Type} (a : Args L) (heap : Heap L) : Heap L × Except Err (Timeboard L) :=
  match makeOrganizer a.layout with
  | .error e => (heap, .error e)
  | .ok org =>
    if a.worktimeSource ∉ ["duration", "labels"] then (heap, .error .valueError)
    else match Frame.new a.freq a.start a.stop with
      | .error e => (heap, .error e)
      | .ok frame =>
        match Layout.attempt frame org { first := 0, last := (frame.n : Int) - 1 }
            { labels := fun _ => a.defaultLabel, mask := fun _ => true, heap := heap } with
        | (st, some e) => (st.heap, .error e)
        | (st, none) =>
          let idx := nonzeroMask st.mask frame.n
          let tl0 : Timeline L := { frame := frame, wsIdx := idx, labels := idx.map st.labels
                                    frameband := maskedCounter st.mask frame.n 0 0, refEnd := a.refEnd }
          match tl0.amend a.amendments with
          | .error e => (st.heap, .error e)
          | .ok tl =>
            let name := a.defaultName.getD "on_duty"
            let sch := Schedule.new tl name a.selector
            (st.heap, .ok { timeline := tl, defaultSchedule := sch, schedules := [(name, sch)]
                            worktimeSource := a.worktimeSource })

/-- A program which makes timeboards one after another and goes on whatever exceptions there are. -/
def Timeboard.attempts {L : Type} : List (Args L) → Heap L → Heap L
  | [], heap => heap
  | a :: as, heap => Timeboard.attempts as (Timeboard.attempt a heap).1

/-- The loop of `_Timeline.amend`: core.py 1047-1060, with the object amended carried along: whatever the loop has done to it is
there when an exception ends the loop. -/
def Timeline.amendLoop {L : Type} (raising : Bool) : List (Time × L) → List (Int × L) → Timeline L → Timeline L × Except Err (List (Int × L))
  | [], located, self => (self, .ok located)
  | (t, v) :: rest, located, self => match self.wsPosition t with
    | .error .outOfBounds => if raising then (self, .error .outOfBounds) else Timeline.amendLoop raising rest located self
    | .error e => (self, .error e)
    | .ok k =>
      if located.any (fun p => p.1 == k) then (self, .error .keyError)
      else Timeline.amendLoop raising rest (located ++ [(k, v)]) self

/-- `_Timeline.amend`: core.py 1016-1063, as a change of the object in place: the object afterwards and the exception. The labels
are assigned after the loop (core.py 1062-1063). -/
def Timeline.amendInPlace {L : Type} (tl : Timeline L) (amendments : List (Time × L)) (raising : Bool := false) : Timeline L × Option Err :=
  match Timeline.amendLoop raising amendments [] tl with
  | (self, .error e) => (self, some e)
  | (self, .ok located) => ({ self with labels := ilocAssign self.labels located }, none)

end TB
