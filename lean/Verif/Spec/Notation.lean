import Verif.Model.Layout
/-! Notations of a layout which are meant to be the same. -/
namespace TB
variable {L : Type}

/-- The elements of the list, given `k + 1` times in a row. -/
def timesOver {α : Type} (k : Nat) (xs : List α) : List α := (List.replicate (k + 1) xs).flatten

/-- The same cuts: marks or `at` specifications in another order or some of them repeated. -/
inductive Cut.Same : Cut → Cut → Prop where
  | marks {ts ts' : List Time} (h : ∀ t, t ∈ ts ↔ t ∈ ts') : Cut.Same (.marks ts) (.marks ts')
  | ats {each : Freq} {ats ats' : List (Frame → Freq → Except Err (List Time))} (h : ∀ g, g ∈ ats ↔ g ∈ ats') :
      Cut.Same (.marker { each := each, ats := ats }) (.marker { each := each, ats := ats' })

/-- The same layouts: the same cuts, structures and patterns written out several times, and all this anywhere inside of
organizers. -/
inductive Layout.Same : Layout L → Layout L → Prop where
  | refl (l : Layout L) : Layout.Same l l
  | symm {l l' : Layout L} (h : Layout.Same l l') : Layout.Same l' l
  | trans {l l' l'' : Layout L} (h : Layout.Same l l') (h' : Layout.Same l' l'') : Layout.Same l l''
  | cut {c c' : Cut} (h : c.Same c') (es : List (Layout L)) : Layout.Same (.organizer c es) (.organizer c' es)
  | cutRP {c c' : Cut} (h : c.Same c') (i : Nat) : Layout.Same (.organizerRP c i) (.organizerRP c' i)
  | structure (c : Cut) (es : List (Layout L)) (k : Nat) : Layout.Same (.organizer c es) (.organizer c (timesOver k es))
  | pattern (xs : List L) (k : Nat) : Layout.Same (.pattern (.list xs)) (.pattern (.list (timesOver k xs)))
  | element (c : Cut) (pre post : List (Layout L)) {l l' : Layout L} (h : Layout.Same l l') :
      Layout.Same (.organizer c (pre ++ l :: post)) (.organizer c (pre ++ l' :: post))

end TB
