import Verif.Spec.Easter
import Verif.Spec.Weekday
import Verif.Spec.Layout
import Verif.Model.When
import Verif.Model.Repr
/-! What the documentation of Marker (core.py 1469-1517) says about the rules. -/
namespace TB
variable {L : Type}

/-- The day of Western Easter. -/
def westernEaster (y : Int) : Int := dayNum y (gregorianEaster y).1 (gregorianEaster y).2

/-- The day of Orthodox Easter: the Julian date with the difference of the calendars. -/
def orthodoxEaster (y : Int) : Int := dayNum y (julianEaster y).1 (julianEaster y).2 + (y / 100 - y / 100 / 4 - 2)

/-- The timeboard is made with the layout `Organizer(marker=m, structure=[label, ...])` and without amendments. -/
structure Args.Labels (a : Args L) (m : Marker) (ls : List L) : Prop where
  plain : a.amendments = []
  layout : a.layout = .organizer (.marker m) (ls.map .label)
  some_label : ls ≠ []
  source : a.worktimeSource ∈ ["duration", "labels"]

/-- Workshifts of the timeboard start at its start and at the given points within it, and nowhere else. -/
def Timeboard.StartsAt (tb : Timeboard L) (points : Time → Prop) : Prop :=
  ∀ t, (∃ d l, tb.Starts t d l) ↔ (t = tb.startTime ∨ (points t ∧ tb.startTime < t ∧ t ≤ tb.endTime))

/-- The day is the `week`-th `weekday` (1 is Monday) of the `month`-th month counted from the start of the period, and the period
contains this month. -/
def NthWeekdayIn (p : Period) (month week wday d : Int) : Prop :=
  IsNthWeekday (monthOf (dayOf p.startTime) + (month - 1)) (wday - 1) week d ∧ monthStart (monthOf (dayOf p.startTime) + (month - 1)) * nsDay ≤ p.endTime

/-- The amount of time given by keyword arguments without years and months; `shift` takes the place of `days`. -/
def plainAmount (shift : Option Int) (o : Offset) : Int :=
  (((7 * o.weeks + shift.getD o.days) * 24 + o.hours) * 3600 + o.minutes * 60 + o.seconds) * nsSec

/-- The shifted day is within the period in which the weekday was sought. -/
def ShiftStays (each : Freq) (x : Int × Int × Int × Option Int) : Prop :=
  ∀ p : Period, p.freq = each → ∀ d, NthWeekdayIn p x.1 x.2.1 x.2.2.1 d →
    p.startTime ≤ (d + x.2.2.2.getD 0) * nsDay ∧ (d + x.2.2.2.getD 0) * nsDay ≤ p.endTime

/-- The keyword arguments are meant for another rule than the named one. -/
def Mismatch (how : String) : Kwargs → Prop
  | .offset _ => how ≠ "from_start_of_each"
  | .weekday .. => how ≠ "nth_weekday_of_month"
  | .easter .. => how ≠ "from_easter_western" ∧ how ≠ "from_easter_orthodox"

end TB
