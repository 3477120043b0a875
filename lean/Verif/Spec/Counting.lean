import Verif.Spec.Points
/-! Numbers of workshifts satisfying a condition. -/
namespace TB
variable {L : Type}

open Classical in
/-- How many workshifts of the timeboard are at positions which satisfy the condition. -/
noncomputable def Timeboard.howMany (tb : Timeboard L) (P : Int → Prop) : Nat :=
  ((intRange 0 tb.timeline.len).filter (fun k => decide (P k))).length

/-- How many workshifts with the duty belong to the interval and to the calendar period. -/
noncomputable def Timeboard.partOf (tb : Timeboard L) (v : Interval L) (s : Schedule L) (duty : Duty) (p : Period) : Nat :=
  tb.howMany (fun k => v.Contains tb k ∧ tb.DutyAt s duty k ∧ tb.RefIn p k)

/-- How many workshifts with the duty belong to the calendar period. -/
noncomputable def Timeboard.wholeOf (tb : Timeboard L) (s : Schedule L) (duty : Duty) (p : Period) : Nat :=
  tb.howMany (fun k => tb.DutyAt s duty k ∧ tb.RefIn p k)

end TB
