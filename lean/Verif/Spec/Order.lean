import Verif.Spec.Dividing
import Verif.Spec.Superfluous
import Verif.Spec.Marks
/-! Divisions one inside the other. -/
namespace TB
variable {L : Type}

/-- Marks, a marker of calendar periods without `at` and without a multiplier, or a regular marker with `at` (Spec/Marks). -/
inductive Cut.Plain (bu : Freq) : Cut → Prop
  | marks (ts : List Time) : Cut.Plain bu (.marks ts)
  | periods {q : Freq} (hq : q.mult = 1) : Cut.Plain bu (.marker ⟨q, []⟩)
  | regular {m : Marker} (hr : m.Regular bu) : Cut.Plain bu (.marker m)

/-- The division has a part which begins with the base unit: a mark falls in it, it begins a calendar period, or the marker marks
it. -/
def Cut.Begins (f : Frame) : Cut → Int → Prop
  | .marks ts, i => ∃ t ∈ ts, f.fallsIn i t = true
  | .marker m, i => (m.ats = [] ∧ ∃ o, f.unitStart i = m.each.base.startOf o) ∨ m.Mark f.freq (f.unitStart i)

/-- The frequency of the division is accepted. -/
def Cut.Accepted (bu : Freq) : Cut → Prop
  | .marks _ => True
  | .marker m => checkGroupbyFreq bu m.each = true

/-- Organizers one inside the other, each with a single element, around a layout. -/
def Layout.nest (cs : List Cut) (l : Layout L) : Layout L := cs.foldr (fun c l => .organizer c [l]) l

/-- The layouts are the same by the rules about superfluous organizers and the order of divisions, applied anywhere in them, in either direction. -/
inductive Layout.Rewrites (bu : Freq) : Layout L → Layout L → Prop
  | shorter {l l' : Layout L} (h : l.Shorter bu l') : Layout.Rewrites bu l l'
  | order {cs cs' : List Cut} (hp : cs.Perm cs') (hc : ∀ c ∈ cs, c.Plain bu) {l : Layout L} (hl : ∀ p, l ≠ .pattern p) : Layout.Rewrites bu (l.nest cs) (l.nest cs')
  | symm {l l' : Layout L} (h : Layout.Rewrites bu l l') : Layout.Rewrites bu l' l
  | trans {l l' l'' : Layout L} (h : Layout.Rewrites bu l l') (h' : Layout.Rewrites bu l' l'') : Layout.Rewrites bu l l''
  | element (c : Cut) (pre post : List (Layout L)) {l l' : Layout L} (h : Layout.Rewrites bu l l') :
      Layout.Rewrites bu (.organizer c (pre ++ l :: post)) (.organizer c (pre ++ l' :: post))

end TB
