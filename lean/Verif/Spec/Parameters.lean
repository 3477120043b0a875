import Verif.Model.Interval
/-! Workshifts which lie within calendar periods. -/
namespace TB
variable {L : Type}

/-- No workshift extends over the beginning of a calendar period: no period of the frequency begins after the start of
a workshift and not later than its end. -/
def Timeboard.Unsplit (tb : Timeboard L) (f : Freq) : Prop :=
  ∀ k w a b, 0 ≤ k → k < tb.timeline.len → Workshift.new tb k = .ok w → w.startTime tb = .ok a → w.endTime tb = .ok b →
    ∀ o, ¬ (a < f.base.startOf o ∧ f.base.startOf o ≤ b)

/-- The timeboards give the same answers to all questions which involve neither calendar periods nor work time, as long
as the schedule is given in a way described by `S`. -/
structure Timeboard.AnswersAlike (tb tb' : Timeboard L) (S : Option (Schedule L) → Prop) : Prop where
  startTime : tb.startTime = tb'.startTime
  endTime : tb.endTime = tb'.endTime
  number : tb.timeline.len = tb'.timeline.len
  workshift : ∀ t s, S s → tb.getWorkshift t s = tb'.getWorkshift t s
  byNumber : ∀ k s, S s → Workshift.new tb k s = Workshift.new tb' k s
  whole : ∀ clip closed s, S s → tb.getInterval none none none clip closed s = tb'.getInterval none none none clip closed s
  byPoints : ∀ x y clip closed s, S s →
    tb.getInterval (some (.pair x y)) none none clip closed s = tb'.getInterval (some (.pair x y)) none none clip closed s
  byLength : ∀ ref n clip closed s, S s →
    tb.getInterval ref (some n) none clip closed s = tb'.getInterval ref (some n) none clip closed s
  times : ∀ w : Workshift L, w.startTime tb = w.startTime tb' ∧ w.endTime tb = w.endTime tb' ∧ w.duration tb = w.duration tb'
  duty : ∀ (w : Workshift L) s, w.isOnDuty tb s = w.isOnDuty tb' s ∧ w.isOffDuty tb s = w.isOffDuty tb' s
  rolling : ∀ (w : Workshift L) n d s, w.rollforward tb n d s = w.rollforward tb' n d s ∧ w.rollback tb n d s = w.rollback tb' n d s
  steps : ∀ (w : Workshift L) n, w.add tb n = w.add tb' n ∧ w.sub tb n = w.sub tb' n
  bounds : ∀ v : Interval L, v.startTime tb = v.startTime tb' ∧ v.endTime tb = v.endTime tb'
  members : ∀ (v : Interval L) d s, v.workshifts tb d s = v.workshifts tb' d s ∧ v.iter tb = v.iter tb'
  nth : ∀ (v : Interval L) n d s, v.nth tb n d s = v.nth tb' n d s
  count : ∀ (v : Interval L) d s, v.count tb d s = v.count tb' d s
  overlap : ∀ (v u : Interval L) s, v.overlap tb u s = v.overlap tb' u s
  portion : ∀ (v u : Interval L) d s, v.whatPortionOf tb u d s = v.whatPortionOf tb' u d s
  duration : ∀ (v : Interval L) d s, v.totalDuration tb d s = v.totalDuration tb' d s

/-- The timeboards give the same answers to the questions about calendar periods. -/
structure Timeboard.PeriodsAlike (tb tb' : Timeboard L) (S : Option (Schedule L) → Prop) : Prop where
  interval : ∀ ref period clip closed s, S s → tb.getInterval ref none period clip closed s = tb'.getInterval ref none period clip closed s
  countPeriods : ∀ (v : Interval L) f d s, v.countPeriods tb f d s = v.countPeriods tb' f d s
  timestamp : ∀ w : Workshift L, w.toTimestamp tb = w.toTimestamp tb'

/-- The timeboards give the same answers to the questions about work time. -/
structure Timeboard.WorktimeAlike (tb tb' : Timeboard L) (num : L → Option Rat) : Prop where
  workshift : ∀ (w : Workshift L) d s, w.worktime tb num d s = w.worktime tb' num d s
  interval : ∀ (v : Interval L) d s, v.worktime tb num d s = v.worktime tb' num d s

end TB
