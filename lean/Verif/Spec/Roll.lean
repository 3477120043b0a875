import Verif.Spec.Duty
/-! Specification of rolling. -/
namespace TB
variable {L : Type}

/-- `k0` is the earliest position with the duty at or after `k`. -/
def Timeboard.ZeroForward (tb : Timeboard L) (s : Schedule L) (d : Duty) (k k0 : Int) : Prop :=
  k ≤ k0 ∧ tb.DutyAt s d k0 ∧ ∀ j, k ≤ j → j < k0 → ¬ tb.DutyAt s d j

/-- `k0` is the latest position with the duty at or before `k`. -/
def Timeboard.ZeroBack (tb : Timeboard L) (s : Schedule L) (d : Duty) (k k0 : Int) : Prop :=
  k0 ≤ k ∧ tb.DutyAt s d k0 ∧ ∀ j, k0 < j → j ≤ k → ¬ tb.DutyAt s d j

/-- `t` has the duty and is reached from `k0` by `n` steps over positions with the duty, to the future if `n` is
positive and to the past if it is negative: there are exactly `|n|` positions with the duty between them,
counting the earlier of the two. -/
def Timeboard.StepsTo (tb : Timeboard L) (s : Schedule L) (d : Duty) (k0 t n : Int) : Prop :=
  tb.DutyAt s d t ∧ ∃ between : List Int, between.Pairwise (· < ·) ∧
    ((k0 ≤ t ∧ n = between.length ∧ ∀ j, j ∈ between ↔ (k0 ≤ j ∧ j < t ∧ tb.DutyAt s d j)) ∨
     (t ≤ k0 ∧ n = -(between.length : Int) ∧ ∀ j, j ∈ between ↔ (t ≤ j ∧ j < k0 ∧ tb.DutyAt s d j)))

end TB
