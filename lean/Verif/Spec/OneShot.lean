import Verif.Model.OneShot
import Verif.Spec.Dividing
import Verif.Spec.Layout
import Verif.Spec.Reading
/-!
# What a layout with iterators amounts to

`OnceLayout.unrolled` writes down, for a given span, the layout without iterators of marks, `at` and structures which does the same: in turn for each
span the element which is applied there, each organizer with what is left of its iterators at that moment.  `f.cut` is the division of a span by
marks or by a marker (`Spec/Dividing.lean`).
-/
namespace TB
variable {L : Type}

/-- What is left of the marks, or of the specifications of `at`, when so many have been drawn.  A marker for which no specifications are left is one
which finds no points. -/
def Cut.remaining : Cut → Option Nat → Drawn → Cut
  | .marks ts, some id, g => .marks (ts.drop (g id))
  | .marker m, some id, g => if m.ats.length ≤ g id then .marker ⟨m.each, [fun _ _ => .ok []]⟩ else .marker ⟨m.each, m.ats.drop (g id)⟩
  | c, none, _ => c

/-- The number of marks or of specifications of `at`. -/
def Cut.size : Cut → Nat
  | .marks ts => ts.length
  | .marker m => m.ats.length

/-- From the iterator `it`, which has `len` elements, `n` more have been drawn (or as many as there were). -/
def Drawn.after (g : Drawn) (it : Option Nat) (n len : Nat) : Drawn := fun j => if it = some j then max (g j) (min len (g j + n)) else g j

/-- How many elements have been drawn; of a list, none. -/
def Drawn.count (g : Drawn) : Option Nat → Nat
  | none => 0
  | some id => g id

/-- The layout to which an element amounts on a span, and what has been drawn afterwards. -/
abbrev Unroll (L : Type) := Span → Drawn → Layout L × Drawn

/-- The elements of a structure take turns on the spans. -/
def unrollTurns (rs : List (Unroll L)) : Nat → List Span → Drawn → List (Layout L) × Drawn
  | _, [], g => ([], g)
  | n, s :: ss, g => match cyclic rs n with
    | none => ([], g)
    | some r => ((r s g).1 :: (unrollTurns rs (n + 1) ss (r s g).2).1, (unrollTurns rs (n + 1) ss (r s g).2).2)

mutual
def OnceLayout.unrolled (f : Frame) : OnceLayout L → Unroll L
  | .organizer cut cutIt elems elemsIt => fun s g =>
    match f.cut s (cut.remaining cutIt g) with
    | .error _ => (.organizer (cut.remaining cutIt g) [], g)
    | .ok ss =>
      let g1 := g.after cutIt cut.size cut.size
      let rs := (OnceLayout.unrolledAll f elems).drop (g1.count elemsIt)
      let x := unrollTurns rs 0 ss (g1.after elemsIt ss.length elems.length)
      (.organizer (cut.remaining cutIt g) x.1, x.2)
  | .organizerRP cut cutIt i => fun _ g => (.organizerRP (cut.remaining cutIt g) i, g.after cutIt cut.size cut.size)
  | .pattern p => fun _ g => (.pattern p, g)
  | .label l => fun _ g => (.label l, g)

def OnceLayout.unrolledAll (f : Frame) : List (OnceLayout L) → List (Unroll L)
  | [] => []
  | l :: ls => OnceLayout.unrolled f l :: OnceLayout.unrolledAll f ls
end

mutual
/-- Lists in the place of iterators. -/
def OnceLayout.asLists : OnceLayout L → Layout L
  | .organizer cut _ elems _ => .organizer cut (OnceLayout.asListsAll elems)
  | .organizerRP cut _ i => .organizerRP cut i
  | .pattern p => .pattern p
  | .label l => .label l

def OnceLayout.asListsAll : List (OnceLayout L) → List (Layout L)
  | [] => []
  | l :: ls => OnceLayout.asLists l :: OnceLayout.asListsAll ls
end

/-- The elements of a structure take turns on the spans; what each uses. -/
def usesInTurns (ds : List (Span → List Nat)) : Nat → List Span → List Nat
  | _, [] => []
  | n, s :: ss => match cyclic ds n with
    | none => []
    | some d => d s ++ usesInTurns ds (n + 1) ss

mutual
/-- The iterators of marks, `at` and structures used when the layout is applied to a span, in the order of their use. -/
def OnceLayout.uses (f : Frame) : OnceLayout L → Span → List Nat
  | .organizer cut cutIt elems elemsIt => fun s =>
    cutIt.toList ++ (elemsIt.toList ++ (match f.cut s cut with
      | .error _ => []
      | .ok ss => usesInTurns (OnceLayout.usesAll f elems) 0 ss))
  | .organizerRP _ cutIt _ => fun _ => cutIt.toList
  | .pattern _ => fun _ => []
  | .label _ => fun _ => []

def OnceLayout.usesAll (f : Frame) : List (OnceLayout L) → List (Span → List Nat)
  | [] => []
  | l :: ls => OnceLayout.uses f l :: OnceLayout.usesAll f ls
end

/-- A marker with an iterator for `at`, if any, has at least one specification. -/
def Cut.Filled : Cut → Option Nat → Prop
  | .marker m, some _ => m.ats ≠ []
  | _, _ => True

mutual
/-- No iterator of specifications of `at` is empty from the beginning. -/
def OnceLayout.Filled : OnceLayout L → Prop
  | .organizer cut cutIt elems _ => cut.Filled cutIt ∧ OnceLayout.FilledAll elems
  | .organizerRP cut cutIt _ => cut.Filled cutIt
  | .pattern _ => True
  | .label _ => True

def OnceLayout.FilledAll : List (OnceLayout L) → Prop
  | [] => True
  | l :: ls => OnceLayout.Filled l ∧ OnceLayout.FilledAll ls
end

mutual
/-- A layout without iterators of marks, `at` and structures. -/
def Layout.noIterators : Layout L → OnceLayout L
  | .organizer cut elems => .organizer cut none (Layout.noIteratorsAll elems) none
  | .organizerRP cut i => .organizerRP cut none i
  | .pattern p => .pattern p
  | .label l => .label l

def Layout.noIteratorsAll : List (Layout L) → List (OnceLayout L)
  | [] => []
  | l :: ls => Layout.noIterators l :: Layout.noIteratorsAll ls
end

/-- The whole frame. -/
def Frame.whole (f : Frame) : Span := { first := 0, last := (f.n : Int) - 1 }

/-- The layout without iterators of marks, `at` and structures to which the layout amounts in this call of the constructor, and what has been drawn
afterwards. -/
def Args.unrolled (a : Args L) (l : OnceLayout L) (g : Drawn) : Layout L × Drawn :=
  match a.frame with
  | .ok f => l.unrolled f f.whole g
  | .error _ => (l.asLists, g)

end TB
