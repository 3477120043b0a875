import Verif.Spec.Reading
/-!
# The spans of an organizer as timeboards of their own

Every span into which an organizer divides a timeboard can be made a timeboard of its own, with the element of `structure` whose turn it is
as the layout.
-/
namespace TB
variable {L : Type}

/-- The points are starts of base units. -/
def Frame.AtUnits (f : Frame) (ts : List Time) : Prop := ∀ t ∈ ts, ∃ j, t = f.unitStart j

/-- Marks are starts of base units: those given, or those delivered by the rules of the marker (there is nothing to require of a marker
without `at`). -/
def Cut.Level (f : Frame) : Cut → Prop
  | .marks ts => f.AtUnits ts
  | .marker m => ∀ how ∈ m.ats, ∀ pi : Frame, pi.freq = m.each → 0 < pi.n → ∀ ts, how pi f.freq = .ok ts → f.AtUnits ts

mutual
/-- All marks in the layout, on every level, are starts of base units. -/
def Layout.Level (f : Frame) : Layout L → Prop
  | .organizer cut elems => cut.Level f ∧ Layout.LevelAll f elems
  | .organizerRP cut _ => cut.Level f
  | .pattern _ => True
  | .label _ => True

def Layout.LevelAll (f : Frame) : List (Layout L) → Prop
  | [] => True
  | l :: ls => Layout.Level f l ∧ Layout.LevelAll f ls
end

/-- The layout of a timeboard which is treated with the element as a whole. -/
def Layout.whole : Layout L → Layout L
  | .pattern p => .organizer (.marks []) [.pattern p]
  | .label l => .organizer (.marks []) [.label l]
  | l => l

/-- The arguments for a timeboard of the base units of the span, treated with the element. -/
def Args.ofPart (a : Args L) (f : Frame) (x : Span) (e : Layout L) : Args L :=
  { a with start := f.unitStart x.first, stop := f.unitEnd x.last, layout := e.whole }

/-- The timeboards of the spans, constructed one after the other; the elements take turns, starting with the number `n`. -/
def buildParts (a : Args L) (f : Frame) (elems : List (Layout L)) : Nat → List Span → Heap L → Except Err (List (Timeboard L) × Heap L)
  | _, [], h => .ok ([], h)
  | n, x :: xs, h => match cyclic elems n with
    | none => .ok ([], h)
    | some e => match Timeboard.new (a.ofPart f x e) h with
      | .error er => .error er
      | .ok (tb, h1) => match buildParts a f elems (n + 1) xs h1 with
        | .error er => .error er
        | .ok (tbs, h2) => .ok (tb :: tbs, h2)

/-- What can be seen of a workshift. -/
structure Seen (L : Type) where
  start : Time
  stop : Time
  units : Int
  label : L
  deriving DecidableEq

/-- This is seen of the workshift. -/
def Workshift.Looks (w : Workshift L) (tb : Timeboard L) (x : Seen L) : Prop :=
  w.startTime tb = .ok x.start ∧ w.endTime tb = .ok x.stop ∧ w.duration tb = .ok x.units ∧ w.label = x.label

/-- The workshifts of the timeboard, in their order. -/
def Timeboard.Lists (tb : Timeboard L) (ws : List (Seen L)) : Prop :=
  tb.timeline.len = (ws.length : Int) ∧
  ∀ (k : Nat) (x : Seen L), ws[k]? = some x → ∃ w, Workshift.new tb k = .ok w ∧ w.Looks tb x

end TB
