import Verif.Spec.Seasons
import Verif.Spec.Reading
/-!
# Calendar patterns at any depth

A layout made of calendar patterns (`season`, e.g. a week's pattern for each week) with organizers around them, however many.
-/
namespace TB
variable {L : Type}

/-- The layout consists of calendar patterns with the property, and of organizers around them. -/
inductive Layout.MadeOf (P : Freq × List L → Prop) : Layout L → Prop
  | season {p : Freq × List L} (h : P p) : Layout.MadeOf P (TB.season p)
  | organizer {cut : Cut} {elems : List (Layout L)} (hne : elems ≠ []) (h : ∀ e ∈ elems, Layout.MadeOf P e) :
      Layout.MadeOf P (.organizer cut elems)

/-- The calendar pattern in force at a point in time, the layout being applied to the span: find the part of the span in which the time is,
count the parts before it, take the element of the structure whose turn it is, and go on with this element. -/
inductive Frame.InForce (f : Frame) : Layout L → Span → Time → Freq × List L → Prop
  | season {p : Freq × List L} {s : Span} {t : Time} : Frame.InForce f (TB.season p) s t p
  | part {cut : Cut} {elems : List (Layout L)} {s : Span} {t : Time} {ss : List Span} {k : Nat} {x : Span} {e : Layout L} {p : Freq × List L}
      (hcut : f.cut s cut = .ok ss) (hx : ss[k]? = some x) (h1 : f.unitStart x.first ≤ t) (h2 : t ≤ f.unitEnd x.last)
      (he : cyclic elems k = some e) (hp : Frame.InForce f e x t p) : Frame.InForce f (.organizer cut elems) s t p

/-- The place of a base unit in the calendar period which contains it: 0 for the first base unit of a week, and so on. -/
def placeIn (bu each : Freq) (t : Time) : Nat :=
  ((Period.ofTime bu t).ord - (Period.ofTime bu (Period.ofTime each t).startTime).ord).toNat

/-- The label the amendments give to the base unit of the point in time; the given label if they do not mention it. -/
def amendedAt (bu : Freq) (amendments : List (Time × L)) (t : Time) (l : L) : L :=
  (((amendments.filter (fun x => (Period.ofTime bu x.1).ord == (Period.ofTime bu t).ord)).head?).map Prod.snd).getD l

end TB
