import Verif.Spec.Intervals
/-! Workshifts located by points in time and by calendar periods, in terms of the public attributes. -/
namespace TB
variable {L : Type}

/-- `k` is the position of the workshift which contains the point in time. -/
def Timeboard.At (tb : Timeboard L) (t : Time) (k : Int) : Prop :=
  0 ≤ k ∧ k < tb.timeline.len ∧ ∃ w a b, Workshift.new tb k = .ok w ∧ w.startTime tb = .ok a ∧ w.endTime tb = .ok b ∧
    a ≤ t ∧ t ≤ b

/-- `k` is the position of a workshift whose reference time is within the calendar period. -/
def Timeboard.RefIn (tb : Timeboard L) (p : Period) (k : Int) : Prop :=
  0 ≤ k ∧ k < tb.timeline.len ∧ ∃ w r, Workshift.new tb k = .ok w ∧ w.toTimestamp tb = .ok r ∧
    p.startTime ≤ r ∧ r ≤ p.endTime

/-- The point in time is on the timeboard. -/
def Timeboard.Within (tb : Timeboard L) (t : Time) : Prop := tb.startTime ≤ t ∧ t ≤ tb.endTime

/-- How many workshifts the value of parameter `closed` takes away from the beginning: '0x' takes one. -/
def headCut (closed : String) : Int := if closed = "00" ∨ closed = "01" then 1 else 0

/-- How many workshifts the value of parameter `closed` takes away from the end: 'x0' takes one. -/
def tailCut (closed : String) : Int := if closed = "00" ∨ closed = "10" then 1 else 0

/-- The permitted values of parameter `closed`. -/
def closedOk (closed : String) : Prop := closed = "00" ∨ closed = "01" ∨ closed = "10" ∨ closed = "11"

/-- The result is an interval of the timeboard under the given schedule which consists of exactly the workshifts at the
positions satisfying `P`. -/
def Timeboard.Yields (tb : Timeboard L) (sch : Option (Schedule L)) (r : Except Err (Interval L)) (P : Int → Prop) : Prop :=
  ∃ v, r = .ok v ∧ tb.HasInterval v ∧ v.isVoid = false ∧ v.schedule = tb.effective sch ∧ ∀ k, v.Contains tb k ↔ P k

end TB
