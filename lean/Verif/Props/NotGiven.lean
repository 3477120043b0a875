import Verif.Model.Carry
import Verif.Model.Floats
import Verif.Model.Foreign
import Verif.Model.LabelSums
import Verif.Model.Selector
import Verif.Model.Values
import Verif.Model.Rules
import Verif.Model.Calendars
import Verif.Model.Attempt
/-! Property C86, continued: arguments which are not given, in the parts of the model other than the main one. -/
namespace TB
variable {K L V ε : Type}

/-- **C86**, workshifts and intervals of another timeboard, portions and periods: by default workshifts on duty are meant, periods are clipped and both
ends are included. -/
theorem C86_elsewhere (tb : Timeboard L) (src : Timeboard K) (w1 w2 : Workshift K) (v : Interval K) (fl : Rat → Rat) (u u' : Interval L) (tb' : Timeboard L)
    (w : Workshift L) (kind : L → Val) (freq : Freq) (truth : V → Except ε Bool) (x : AnyWorkshift L V ε) (atb : AnyTimeboard L V ε) :
    tb.getWorkshiftOf src w1 = tb.getWorkshiftOf src w1 none ∧
    tb.getIntervalOf src w1 w2 = tb.getIntervalOf src w1 w2 true "11" none ∧ tb.getIntervalOver src v = tb.getIntervalOver src v true "11" none ∧
    u.floatPeriods fl tb freq = u.floatPeriods fl tb freq .on none ∧ u.floatPortionOf fl tb u' = u.floatPortionOf fl tb u' .on none ∧
    u.whatPortionOfOther tb u' tb' = u.whatPortionOfOther tb u' tb' .on none ∧
    u.worktimeAny tb kind = u.worktimeAny tb kind .on none ∧ w.worktimeAny tb kind = w.worktimeAny tb kind .on none ∧
    x.rollforward truth atb = x.rollforward truth atb 0 .on none ∧ x.rollback truth atb = x.rollback truth atb 0 .on none :=
  ⟨rfl, rfl, rfl, rfl, rfl, rfl, rfl, rfl, rfl, rfl⟩

/-- **C86**, amendments and rules: by default points in time outside the timeboard are left out, a date which is not there is left out, the weekend is
Saturday and Sunday and keeps the label of the holiday, and marks are counted from the start of the period. -/
theorem C86_rules (tl : Timeline L) (xs : List (Time × L)) (vs : List (PyValue L × L)) (year : Int) (seek : List SeekDate) (l : L) (how : String)
    (each : Freq) (ats : List Kwargs) :
    tl.amend xs = tl.amend xs false ∧ tl.amendV vs = tl.amendV vs false ∧ tl.amendInPlace xs = tl.amendInPlace xs false ∧
    nthWeekdays year seek l = nthWeekdays year seek l false ∧ extendWeekends xs how = extendWeekends xs how none [5, 6] ∧
    MarkerObj.create each ats = MarkerObj.create each ats "from_start_of_each" :=
  ⟨rfl, rfl, rfl, rfl, rfl, rfl⟩

end TB
