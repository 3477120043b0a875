import Verif.Model.IntKinds
import Verif.Spec.Intervals
/-! What tells whether the bounds of an interval are fit for further calculations (property C120). -/
namespace TB
variable {L : Type}

/-- Both bounds are integers of Python. -/
def KInterval.Plain (v : KInterval L) : Prop := v.np0 = false ∧ v.np1 = false

/-- Of two intervals, the one which begins later (the first one if they begin together) got its first bound from numpy. -/
def BeginIsNumpy (u v : KInterval L) : Prop := (v.ivl.lo ≤ u.ivl.lo ∧ u.np0 = true) ∨ (u.ivl.lo < v.ivl.lo ∧ v.np0 = true)

/-- Of two intervals, the one which ends earlier (the first one if they end together) got its last bound from numpy. -/
def EndIsNumpy (u v : KInterval L) : Prop := (u.ivl.hi ≤ v.ivl.hi ∧ u.np1 = true) ∨ (v.ivl.hi < u.ivl.hi ∧ v.np1 = true)

/-- Workshifts which are got from others: by rolling, from an interval, by iterating. -/
inductive Timeboard.Derived (tb : Timeboard L) : KWorkshift L → Prop where
  | forward {w x : KWorkshift L} {n : Int} {d : Duty} {s : Option (Schedule L)} (h : w.rollforward tb n d s = .ok x) : Derived tb x
  | back {w x : KWorkshift L} {n : Int} {d : Duty} {s : Option (Schedule L)} (h : w.rollback tb n d s = .ok x) : Derived tb x
  | nth {v : KInterval L} {x : KWorkshift L} {n : Int} {d : Duty} {s : Option (Schedule L)} (h : v.nth tb n d s = .ok x) : Derived tb x
  | listed {v : KInterval L} {x : KWorkshift L} {d : Duty} {s : Option (Schedule L)} {ws : List (KWorkshift L)}
      (h : v.workshifts tb d s = .ok ws) (hx : x ∈ ws) : Derived tb x

end TB
