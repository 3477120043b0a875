import Verif.Spec.Construct
/-!
# Names of frequencies

The same calendar periods may be called by different strings: 'W' and 'W-SUN', 'T' and 'min', 'A' and 'Y-DEC', 'Q' and 'Q-MAR', 'D' and
'1D'.
-/
namespace TB
variable {L : Type}

/-- The strings mean the same calendar periods: whatever the point in time, the period which contains it (or begins with the calendar
period which contains it, if multiplied) has the same start and the same end. -/
def Freq.SameAs (f g : Freq) : Prop :=
  ∀ t, (Period.ofTime f t).startTime = (Period.ofTime g t).startTime ∧ (Period.ofTime f t).endTime = (Period.ofTime g t).endTime

/-- The marker with its frequency called by another name. -/
def Cut.respell (ρ : Freq → Freq) : Cut → Cut
  | .marker m => .marker { m with each := ρ m.each }
  | .marks ts => .marks ts

mutual
/-- The layout with the frequencies of all markers called by other names. -/
def Layout.respell (ρ : Freq → Freq) : Layout L → Layout L
  | .organizer cut elems => .organizer (cut.respell ρ) (Layout.respellAll ρ elems)
  | .organizerRP cut i => .organizerRP (cut.respell ρ) i
  | .pattern p => .pattern p
  | .label l => .label l
/-- The elements of a structure with the frequencies of all markers called by other names. -/
def Layout.respellAll (ρ : Freq → Freq) : List (Layout L) → List (Layout L)
  | [] => []
  | l :: ls => Layout.respell ρ l :: Layout.respellAll ρ ls
end

/-- A rule of a marker which does not care about names: same points in time for the same periods and base units. -/
def Nameless (how : Frame → Freq → Except Err (List Time)) : Prop :=
  ∀ (pi pi' : Frame) (bu bu' : Freq), bu.SameAs bu' → pi.n = pi'.n → pi.freq.SameAs pi'.freq → pi.unitStart 0 = pi'.unitStart 0 →
    how pi bu = how pi' bu'

end TB
