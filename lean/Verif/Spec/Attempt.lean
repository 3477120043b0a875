import Verif.Spec.Layout
import Verif.Spec.Construct
import Verif.Model.Interval
/-! RememberingPatterns made of given labels, in any state. -/
namespace TB
variable {L : Type}

/-- A RememberingPattern made of the labels `xs` which has handed out any number of labels (none if there are no labels). -/
def Cycle.MadeOf (c : Cycle L) (xs : List L) : Prop := (xs = [] ∧ c = Cycle.start []) ∨ ∃ p, c.HandedOut xs p

/-- The RememberingPatterns are the same but may be in different states. -/
def Heap.SameMaking (h h' : Heap L) : Prop := ∀ id, ∃ xs, (h id).MadeOf xs ∧ (h' id).MadeOf xs

/-- The RememberingPattern occurs in the layout: as a pattern or as the structure of an Organizer. -/
def Layout.UsesRP (l : Layout L) (id : Nat) : Prop :=
  Layout.Within (.pattern (.rp id)) l ∨ ∃ cut, Layout.Within (.organizerRP cut id) l

theorem Layout.UsesRP.elem {cut : Cut} {elems : List (Layout L)} {l : Layout L} {id : Nat} (h : l.UsesRP id) (hl : l ∈ elems) :
    (Layout.organizer cut elems).UsesRP id := by
  rcases h with h | ⟨c, h⟩
  · exact .inl (.elem hl h)
  · exact .inr ⟨c, .elem hl h⟩

/-- The timeboards begin and end together, have as many workshifts, and workshifts with the same number have the same times. The
labels may differ. -/
structure Timeboard.SameShape (tb tb' : Timeboard L) : Prop where
  start : tb.startTime = tb'.startTime
  stop : tb.endTime = tb'.endTime
  number : tb.timeline.len = tb'.timeline.len
  each : ∀ k, 0 ≤ k → k < tb.timeline.len → ∃ w w', Workshift.new tb k = .ok w ∧ Workshift.new tb' k = .ok w' ∧
    w.startTime tb = w'.startTime tb' ∧ w.endTime tb = w'.endTime tb' ∧ w.toTimestamp tb = w'.toTimestamp tb'

end TB
