import Verif.Spec.Parameters
import Verif.Spec.Reading
/-!
# Layouts which keep within calendar periods

A layout in which, whichever way one goes inwards, one meets an organizer with the plain marker of the frequency or arrives at a pattern (where
each base unit is a workshift).
-/
namespace TB
variable {L : Type}

/-- Whichever way one goes inwards, there is an organizer by the calendar periods, or a pattern of base units. -/
inductive Layout.Keeps (q : Freq) : Layout L → Prop
  | units {p : Pattern L} : Layout.Keeps q (.pattern p)
  | periods {elems : List (Layout L)} : Layout.Keeps q (.organizer (.marker ⟨q, []⟩) elems)
  | shifts {id : Nat} : Layout.Keeps q (.organizerRP (.marker ⟨q, []⟩) id)
  | inside {cut : Cut} {elems : List (Layout L)} (h : ∀ e ∈ elems, Layout.Keeps q e) : Layout.Keeps q (.organizer cut elems)

end TB
