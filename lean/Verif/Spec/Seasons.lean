import Verif.Model.Layout
/-! Seasons: organizers by calendar periods which take turns. -/
namespace TB
variable {L : Type}

/-- `Organizer(marker=each, structure=[labels])`. -/
def season (p : Freq × List L) : Layout L := .organizer (.marker ⟨p.1, []⟩) [.pattern (.list p.2)]

/-- The time is within a summer: not before its beginning `a y` and before its end `b y`, in some year. -/
def InSummer (a b : Int → Time) (t : Time) : Prop := ∃ y, a y ≤ t ∧ t < b y

end TB
