import Verif.Spec.Reading
/-!
# From the outside inwards

How to tell the workshift at a point in time, for a layout of any nesting, without going through the workshifts before it: take the span of the
outermost organizer which contains the time, then the element whose turn it is, then the span of this element, and so on.
-/
namespace TB
variable {L : Type}

/-- The base unit contains the point in time. -/
def Frame.UnitAt (f : Frame) (i : Int) (t : Time) : Prop := f.unitStart i ≤ t ∧ t ≤ f.unitEnd i

/-- The layout `l` on the span `s` leads, at the time `t`, to a workshift of the base units from `first` to `last`, with one of the labels in the
list: the list consists of one label unless the label comes from a RememberingPattern (`rp` gives its labels).  `dl` is the default label. -/
inductive Frame.Leads (f : Frame) (dl : L) (rp : Nat → List L) : Layout L → Span → Time → Int → Int → List L → Prop
  | label {l : L} {s : Span} {t : Time} : Frame.Leads f dl rp (.label l) s t s.first s.last [l]
  | unit {xs : List L} {s : Span} {t : Time} {i : Int} {l : L} (hi : f.UnitAt i t) (hl : cyclic xs (s.skipLeft + (i - s.first)).toNat = some l) :
      Frame.Leads f dl rp (.pattern (.list xs)) s t i i [l]
  | unlabelled {s : Span} {t : Time} {i : Int} (hi : f.UnitAt i t) : Frame.Leads f dl rp (.pattern (.list [])) s t i i [dl]
  | remembering {id : Nat} {s : Span} {t : Time} {i : Int} (hi : f.UnitAt i t) (hn : rp id ≠ []) : Frame.Leads f dl rp (.pattern (.rp id)) s t i i (rp id)
  | rememberingNone {id : Nat} {s : Span} {t : Time} {i : Int} (hi : f.UnitAt i t) (hn : rp id = []) : Frame.Leads f dl rp (.pattern (.rp id)) s t i i [dl]
  | part {cut : Cut} {elems : List (Layout L)} {s : Span} {t : Time} {ss : List Span} {k : Nat} {x : Span} {e : Layout L} {first last : Int} {ls : List L}
      (hcut : f.cut s cut = .ok ss) (hx : ss[k]? = some x) (h1 : f.unitStart x.first ≤ t) (h2 : t ≤ f.unitEnd x.last)
      (he : cyclic elems k = some e) (hp : Frame.Leads f dl rp e x t first last ls) : Frame.Leads f dl rp (.organizer cut elems) s t first last ls
  | bare {cut : Cut} {s : Span} {t : Time} {i : Int} (hi : f.UnitAt i t) : Frame.Leads f dl rp (.organizer cut []) s t i i [dl]
  | shift {cut : Cut} {id : Nat} {s : Span} {t : Time} {ss : List Span} {x : Span} (hcut : f.cut s cut = .ok ss) (hx : x ∈ ss)
      (h1 : f.unitStart x.first ≤ t) (h2 : t ≤ f.unitEnd x.last) (hn : rp id ≠ []) : Frame.Leads f dl rp (.organizerRP cut id) s t x.first x.last (rp id)
  | shiftNone {cut : Cut} {id : Nat} {s : Span} {t : Time} {i : Int} (hi : f.UnitAt i t) (hn : rp id = []) :
      Frame.Leads f dl rp (.organizerRP cut id) s t i i [dl]

/-- The span `y` is met on the way inwards. -/
inductive Frame.Passes (f : Frame) : Layout L → Span → Time → Span → Prop
  | here {l : Layout L} {s : Span} {t : Time} : Frame.Passes f l s t s
  | part {cut : Cut} {elems : List (Layout L)} {s : Span} {t : Time} {ss : List Span} {k : Nat} {x y : Span} {e : Layout L}
      (hcut : f.cut s cut = .ok ss) (hx : ss[k]? = some x) (h1 : f.unitStart x.first ≤ t) (h2 : t ≤ f.unitEnd x.last)
      (he : cyclic elems k = some e) (hp : Frame.Passes f e x t y) : Frame.Passes f (.organizer cut elems) s t y

/-- The label the amendments give to the workshift of the base units from `first` to `last`; the given label if they do not mention it. -/
def Frame.amendedShift (f : Frame) (amendments : List (Time × L)) (first last : Int) (l : L) : L :=
  (((amendments.filter (fun x => decide (f.unitStart first ≤ x.1 ∧ x.1 ≤ f.unitEnd last))).head?).map Prod.snd).getD l

end TB
