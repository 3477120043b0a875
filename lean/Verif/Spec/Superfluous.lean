import Verif.Props.AnyDepth
/-!
# Superfluous organizers

Organizers which may be left out of a layout, or written in another way.
-/
namespace TB
variable {L : Type}

/-- The second layout is the first one without some superfluous organizers, for base units of the frequency `bu`. -/
inductive Layout.Shorter (bu : Freq) : Layout L → Layout L → Prop
  | refl (l : Layout L) : Layout.Shorter bu l l
  | trans {l l' l'' : Layout L} (h : Layout.Shorter bu l l') (h' : Layout.Shorter bu l' l'') : Layout.Shorter bu l l''
  /-- An element of a structure. -/
  | element (c : Cut) (pre post : List (Layout L)) {l l' : Layout L} (h : Layout.Shorter bu l l') :
      Layout.Shorter bu (.organizer c (pre ++ l :: post)) (.organizer c (pre ++ l' :: post))
  /-- The further elements of the structure of an organizer without marks have no turn. -/
  | first (l : Layout L) (es : List (Layout L)) : Layout.Shorter bu (.organizer (.marks []) (l :: es)) (.organizer (.marks []) [l])
  /-- An organizer without marks around anything but a pattern; the further elements of its structure have no turn. -/
  | whole {l : Layout L} (es : List (Layout L)) (hl : ∀ p, l ≠ .pattern p) : Layout.Shorter bu (.organizer (.marks []) (l :: es)) l
  /-- An organizer by the same periods directly inside; the further elements of its structure have no turn. -/
  | again {q : Freq} (hq : q.mult = 1) (pre post : List (Layout L)) (l : Layout L) (es : List (Layout L)) :
      Layout.Shorter bu (.organizer (.marker ⟨q, []⟩) (pre ++ .organizer (.marker ⟨q, []⟩) (l :: es) :: post)) (.organizer (.marker ⟨q, []⟩) (pre ++ l :: post))
  /-- An organizer by longer periods directly inside, around anything but a pattern. -/
  | longer {q g : Freq} (hq : q.mult = 1) (hg : g.base.UnitsOf q.base) (hc : checkGroupbyFreq bu g = true) (pre post : List (Layout L)) {l : Layout L}
      (es : List (Layout L)) (hl : ∀ p, l ≠ .pattern p) :
      Layout.Shorter bu (.organizer (.marker ⟨q, []⟩) (pre ++ .organizer (.marker ⟨g, []⟩) (l :: es) :: post)) (.organizer (.marker ⟨q, []⟩) (pre ++ l :: post))
  /-- Marks at two levels are the same as all marks at one. -/
  | marks (ts ts' : List Time) (l : Layout L) : Layout.Shorter bu (.organizer (.marks ts) [.organizer (.marks ts') [l]]) (.organizer (.marks (ts ++ ts')) [l])
  /-- Shorter periods directly inside longer ones made of them are the same as the shorter ones alone. -/
  | shorter {q g : Freq} (hq : q.mult = 1) (hg : g.mult = 1) (hu : q.base.UnitsOf g.base) (hc : checkGroupbyFreq bu q = true) (l : Layout L) :
      Layout.Shorter bu (.organizer (.marker ⟨q, []⟩) [.organizer (.marker ⟨g, []⟩) [l]]) (.organizer (.marker ⟨g, []⟩) [l])
  /-- An organizer by the base units themselves, with single labels, is a pattern which begins with the span. -/
  | units (hc : checkGroupbyFreq bu bu = true) (xs : List L) :
      Layout.Shorter bu (.organizer (.marker ⟨bu, []⟩) (xs.map .label)) (.organizer (.marks []) [.pattern (.list xs)])

end TB
