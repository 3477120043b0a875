import Verif.Spec.Duty
/-! Which intervals a user can have, and what belongs to them. -/
namespace TB
variable {L : Type}

/-- Intervals which can be made on the timeboard: by the constructor of `Interval` (as `get_interval` does) and by
`overlap`, repeatedly. -/
inductive Timeboard.HasInterval (tb : Timeboard L) : Interval L → Prop where
  | new {a b : Int} {s : Option (Schedule L)} {v : Interval L} (hs : tb.OwnsOpt s)
      (h : Interval.new tb (a, b) s = .ok v) : HasInterval tb v
  | overlap {u v x : Interval L} {s : Option (Schedule L)} (hu : HasInterval tb u) (hv : HasInterval tb v)
      (hs : tb.OwnsOpt s) (h : u.overlap tb v s = .ok x) : HasInterval tb x

/-- The workshift at position `k` is among those obtained by iterating over the interval. -/
def Interval.Contains (v : Interval L) (tb : Timeboard L) (k : Int) : Prop :=
  ∃ ws, v.iter tb = .ok ws ∧ ∃ w ∈ ws, w.loc = k

end TB
