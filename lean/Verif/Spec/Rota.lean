import Verif.Spec.Layout
import Verif.Model.Workshift
/-! Workshifts whose labels follow each other in turn. -/
namespace TB
variable {L : Type}

/-- The labels of the workshifts are those number `p`, `p + 1`, ... of the endless repetition of `xs`. -/
def Timeboard.Rota (tb : Timeboard L) (xs : List L) (p : Nat) : Prop :=
  xs ≠ [] ∧ ∀ k : Nat, (k : Int) < tb.timeline.len → ∃ w, Workshift.new tb k = .ok w ∧ cyclic xs (p + k) = some w.label

end TB
