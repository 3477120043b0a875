import Verif.Model.Timeboard
/-! Specification of the reasons for which a timeboard cannot be constructed. -/
namespace TB
variable {L : Type}

/-- `x` is the layout `l` or occurs in it as an element of a structure, at any depth. -/
inductive Layout.Within (x : Layout L) : Layout L → Prop where
  | here : Within x x
  | elem {cut : Cut} {elems : List (Layout L)} {l : Layout L} : l ∈ elems → Within x l → Within x (.organizer cut elems)

/-- Some Organizer of the layout has the marker. -/
def Layout.UsesMarker (l : Layout L) (m : Marker) : Prop :=
  (∃ elems, Layout.Within (.organizer (.marker m) elems) l) ∨ ∃ id, Layout.Within (.organizerRP (.marker m) id) l

/-- Some Organizer of the layout has a marker with `at` and a pattern in its structure. -/
def Layout.PatternUnderAt (l : Layout L) : Prop :=
  ∃ m elems p, Layout.Within (.organizer (.marker m) elems) l ∧ m.ats ≠ [] ∧ Layout.pattern p ∈ elems

/-- `pi` consists of the periods of the marker which are looked at when the base units `i..j` of the frame are cut: those around
the base units, with a margin of one period of the marker on both sides. -/
def Marker.LooksAt (m : Marker) (f : Frame) (i j : Int) (pi : Frame) : Prop :=
  0 ≤ i ∧ i ≤ j ∧ j < f.n ∧ Frame.new m.each (f.unitStart i - getFreqDelta m.each) (f.unitEnd j + getFreqDelta m.each) = .ok pi

/-- Some Organizer of the layout, whose marker has `at` and whose structure begins with a pattern, is applied to base units
of the frame such that all marks are after the start of the first of them. -/
def Layout.NoStart (f : Frame) (l : Layout L) : Prop :=
  ∃ m p elems, Layout.Within (.organizer (.marker m) (.pattern p :: elems)) l ∧ m.ats ≠ [] ∧ ∃ i j pi, m.LooksAt f i j pi ∧
    ∀ how ∈ m.ats, ∃ ts, how pi f.freq = .ok ts ∧ ∀ t ∈ ts, f.unitStart i < t

/-- What can be wrong with a layout for a frame: the frequency of a marker is not acceptable; a `how` function raises an
exception; a pattern is to be applied to base units which precede the first mark. -/
def Layout.Fault (f : Frame) (l : Layout L) (e : Err) : Prop :=
  (∃ m, l.UsesMarker m ∧ checkGroupbyFreq f.freq m.each = false ∧ e = .unacceptablePeriod) ∨
  (∃ m, l.UsesMarker m ∧ ∃ how ∈ m.ats, ∃ i j pi, m.LooksAt f i j pi ∧ how pi f.freq = .error e) ∨
  (l.NoStart f ∧ e = .outOfBounds)

end TB
