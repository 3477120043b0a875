import Verif.Spec.Reference
import Verif.Spec.Intervals
/-! Timeboards which agree on a stretch of time. -/
namespace TB
variable {L : Type}

/-- What the user sees of a workshift. -/
def Workshift.view (w : Workshift L) (tb : Timeboard L) : Option (Shift L) :=
  match w.startTime tb, w.endTime tb, w.toTimestamp tb, w.duration tb with
  | .ok s, .ok e, .ok r, .ok d => some { start := s, stop := e, ref := r, duration := d, label := w.label }
  | _, _, _, _ => none

/-- From `s` to `e` both timeboards have the same workshifts, all of which are entirely in this time. -/
structure Timeboard.AgreesOn (tb tb' : Timeboard L) (s e : Time) : Prop where
  nonempty : s ≤ e
  same : ∀ t, s ≤ t → t ≤ e → ∃ w w' x, tb.getWorkshift t = .ok w ∧ tb'.getWorkshift t = .ok w' ∧ w.view tb = some x ∧ w'.view tb' = some x ∧
    s ≤ x.start ∧ x.stop ≤ e

/-- The interval goes from the one time to the other. -/
def Interval.Spans (v : Interval L) (tb : Timeboard L) (t u : Time) : Prop := v.startTime tb = .ok (some t) ∧ v.endTime tb = .ok (some u)

/-- Both ask for an interval with the same outcome: the same error, or intervals with the same start and end, in the given time, and the
schedules asked for. -/
def Timeboard.SameInterval (tb tb' : Timeboard L) (s e : Time) (sch sch' : Option (Schedule L)) : Except Err (Interval L) → Except Err (Interval L) → Prop
  | .ok v, .ok v' => tb.HasInterval v ∧ tb'.HasInterval v' ∧ v.schedule = tb.effective sch ∧ v'.schedule = tb'.effective sch' ∧
      ∃ t u, v.Spans tb t u ∧ v'.Spans tb' t u ∧ s ≤ t ∧ u ≤ e
  | .error er, .error er' => er = er'
  | _, _ => False

/-- The arguments `interval_ref`, `length`, `period` of `get_interval` point at some time between `s` and `e`. -/
def AskedWithin (s e : Time) : Option IvlRef → Option Int → Option Freq → Prop
  | some (.pair (some t) (some u)), none, none => s ≤ t ∧ t ≤ e ∧ s ≤ u ∧ u ≤ e
  | some (.period p), none, _ => s ≤ p.startTime ∧ p.endTime ≤ e
  | some (.point t), none, some f => s ≤ (Period.ofTime f t).startTime ∧ (Period.ofTime f t).endTime ≤ e
  | _, _, _ => False

end TB
