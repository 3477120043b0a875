import Verif.Spec.Construct
import Verif.Spec.Reachable
import Verif.Model.Interval
import Verif.Model.When
/-! The same timeboard some time later (or earlier). -/
namespace TB
variable {L : Type}

/-- Adding `d` nanoseconds takes periods to periods: the period `k` periods later starts `d` later, whichever period it is. -/
def Base.Recurs (b : Base) (d : Int) : Prop := ∃ k, ∀ o, b.startOf (o + k) = b.startOf o + d

/-- The marks of the marker recur: they are set for periods which recur, and the same number of periods which begin `d` later
have the marks `d` later. -/
def Marker.Recurs (m : Marker) (bu : Freq) (d : Int) : Prop :=
  m.each.base.Recurs d ∧ ∀ how ∈ m.ats, ∀ pi pi' : Frame, pi.freq = m.each → pi'.freq = m.each → pi'.n = pi.n →
    pi'.startTime = pi.startTime + d → how pi' bu = (how pi bu).map (fun ts => ts.map (· + d))

/-- The marks given explicitly, `d` later. -/
def Cut.later (d : Int) : Cut → Cut
  | .marker m => .marker m
  | .marks ts => .marks (ts.map (· + d))

mutual
/-- The layout with all explicit marks moved; markers, patterns and labels are the same. -/
def Layout.later (d : Int) : Layout L → Layout L
  | .organizer cut elems => .organizer (cut.later d) (Layout.laterAll d elems)
  | .organizerRP cut i => .organizerRP (cut.later d) i
  | .pattern p => .pattern p
  | .label l => .label l
/-- The elements of a structure, each moved. -/
def Layout.laterAll (d : Int) : List (Layout L) → List (Layout L)
  | [] => []
  | l :: ls => Layout.later d l :: Layout.laterAll d ls
end

/-- The arguments of a timeboard with all points in time moved. -/
def Args.later (d : Int) (a : Args L) : Args L :=
  { a with start := a.start + d, stop := a.stop + d, layout := a.layout.later d
           amendments := a.amendments.map (fun p => (p.1 + d, p.2)) }

/-- The workshifts of the second timeboard are those of the first one, `d` later: the workshifts with the same number have the
same label and duration, and the start, end and reference time of the second one are `d` later. -/
structure Timeboard.LaterBy (d : Int) (tb tb' : Timeboard L) : Prop where
  number : tb.timeline.len = tb'.timeline.len
  each : ∀ k, 0 ≤ k → k < tb.timeline.len → ∃ w w', Workshift.new tb k = .ok w ∧ Workshift.new tb' k = .ok w' ∧ w.label = w'.label ∧
    w.duration tb = w'.duration tb' ∧ w'.startTime tb' = (w.startTime tb).map (· + d) ∧ w'.endTime tb' = (w.endTime tb).map (· + d) ∧
    w'.toTimestamp tb' = (w.toTimestamp tb).map (· + d)

/-- A reference to an interval, `d` later (periods of a frequency which recurs). -/
def IvlRef.later (d : Int) : IvlRef → IvlRef
  | .pair a b => .pair (a.map (· + d)) (b.map (· + d))
  | .short => .short
  | .point t => .point (t + d)
  | .period p => .period (Period.ofTime p.freq (p.startTime + d))

/-- Both timeboards are made through the public API; the second one has the workshifts of the first one `d` later, and the same
default schedule and source of work time. -/
structure Timeboard.Later (d : Int) (tb tb' : Timeboard L) : Prop where
  reachable : tb.Reachable
  reachable' : tb'.Reachable
  same : tb.LaterBy d tb'
  name : tb'.defaultSchedule.name = tb.defaultSchedule.name
  selector : tb'.defaultSchedule.selector = tb.defaultSchedule.selector
  source : tb'.worktimeSource = tb.worktimeSource

/-- Periods not longer than a week; unlike months they are of the same length. -/
def Base.Weekly : Base → Prop
  | .S | .T | .H | .D | .W _ => True
  | .M | .Q _ | .A _ => False

/-- A marker of such periods; if it has `at`, the points are told by an offset from the start of the period, without years and
months. -/
def Marker.Weekly (m : Marker) : Prop :=
  m.each.base.Weekly ∧ ∀ how ∈ m.ats, ∃ kwargs, how = fromStartOfEach kwargs ∧ ∀ o, kwargs = some o → o.years = 0 ∧ o.months = 0

/-- A marker whose points, if it has `at`, are told by an offset from the start of the period or as the n-th weekday of a month. -/
def Marker.Civil (m : Marker) : Prop :=
  ∀ how ∈ m.ats, (∃ kwargs, how = fromStartOfEach kwargs) ∨ ∃ month week wday shift, how = nthWeekdayOfMonth month week wday shift

end TB
