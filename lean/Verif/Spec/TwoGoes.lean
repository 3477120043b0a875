import Verif.Spec.Nested
import Verif.Spec.Marks
/-!
# A timeboard made in two goes

Where a timeboard can be stopped and taken up again with the same layout: at the start of a span of its outermost organizer at which the turns
of `structure` begin anew; or, if the structure is a RememberingPattern, at the start of any span.
-/
namespace TB
variable {L : Type}

/-- The outermost organizer divides with `cut`, and the span number `k` is the first one of a turn of its `structure`. -/
def Layout.TurnsAt (k : Nat) (cut : Cut) : Layout L → Prop
  | .organizer c elems => c = cut ∧ elems.length ∣ k
  | .organizerRP c _ => c = cut
  | _ => False

/-- Marks do not depend on where the span starts: marks given, a marker without `at`, or one whose points are made for each calendar period on
its own. -/
def Cut.Anywhere (bu : Freq) : Cut → Prop
  | .marks _ => True
  | .marker m => m.ats = [] ∨ m.Regular bu

/-- The arguments with an end just before the point in time. -/
def Args.before (a : Args L) (t : Time) : Args L := { a with stop := t - 1 }

/-- The arguments with the start at the point in time. -/
def Args.startingAt (a : Args L) (t : Time) : Args L := { a with start := t }

end TB
