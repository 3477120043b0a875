import Verif.Model.Frame
/-!
# Points in time derived from calendar periods

Models `timeboard/when.py` (the values of parameter `how` of a Marker) with the parts of pandas and dateutil used there.
The period index `pi` is the stencil frame (core.py 427-438); `normalize_by` is the base unit frequency.
-/
namespace TB

/-- Keyword arguments of `pd.DateOffset` (when.py 31, 197).
Simplification: the plural arguments from years to seconds; no sub-second and no singular (replacing) arguments. -/
structure Offset where
  years : Int := 0
  months : Int := 0
  weeks : Int := 0
  days : Int := 0
  hours : Int := 0
  minutes : Int := 0
  seconds : Int := 0
  deriving DecidableEq, Repr

/-- The part of the offset which is a number of nanoseconds. -/
def Offset.fixed (o : Offset) : Int :=
  (7 * o.weeks + o.days) * nsDay + o.hours * nsHour + o.minutes * nsMin + o.seconds * nsSec

/-- Number of days of a month. -/
def monthLen (k : Int) : Int := monthStart (k + 1) - monthStart k

/-- `t + relativedelta(years, months)`: the same day of another month, or the last day of that month if there is no such
day; the time of the day is kept. -/
def addMonths (t : Time) (n : Int) : Time :=
  let k := monthOf (dayOf t) + n
  (monthStart k + min (dayOfMonth (dayOf t)) (monthLen k) - 1) * nsDay + t % nsDay

/-- `t + pd.DateOffset(**kwargs)`; `none` stands for no keyword arguments at all, which pandas understands as one day. -/
def addOffset (t : Time) : Option Offset → Time
  | none => t + nsDay
  | some o => addMonths t (12 * o.years + o.months) + o.fixed

/-- `testtime`: when.py 32, 198. -/
def testTime : Time := date 2004 1 1

/-- The start of the base period containing the point: `pd.PeriodIndex(result, freq).to_timestamp(how='start')`, when.py
48-49, 210-211 (a period of a multiplied frequency begins with the base period of the point). -/
def snap (f : Freq) (t : Time) : Time := f.base.startOf (f.base.ordOf t)

/-- The end times of the periods of the index: `pi.to_timestamp(how='end', freq='S')`, when.py 38, 130, 202. Points with a
resolution of one second are compared with them, so it does not matter whether the last second or the last nanosecond
of the period is meant. -/
def Frame.endTimes (f : Frame) : List Time := (List.range f.n).map (fun (i : Nat) => f.unitEnd i)

/-- `xs[xs <= bounds]` or the like, for arrays: different lengths raise ValueError. -/
def maskBy (p : Time → Time → Bool) (xs bounds : List Time) : Except Err (List Time) :=
  if xs.length = bounds.length then .ok (((xs.zip bounds).filter (fun x => p x.1 x.2)).map Prod.fst)
  else .error .valueError

/-- `from_start_of_each`: when.py 10-60. -/
def fromStartOfEach (kwargs : Option Offset) (pi : Frame) (normalizeBy : Freq) : Except Err (List Time) :=
  if addOffset testTime kwargs < testTime then .ok []
  else maskBy (fun t e => decide (t ≤ e)) (pi.startTimes.map (fun t => snap normalizeBy (addOffset t kwargs))) pi.endTimes

/-- `drop_duplicates()` of an ascending array: when.py 121. -/
def dedup : List Int → List Int
  | [] => []
  | x :: xs => if xs.head? = some x then dedup xs else x :: dedup xs

/-- `t + Week(n, weekday)` of pandas for midnight `t`, on day numbers: the day rolls forward to the weekday first, which
uses up one week if `n` is positive. -/
def addWeeks (d n wd : Int) : Int :=
  if weekday d ≠ wd then d + (wd - weekday d) % 7 + 7 * (if n > 0 then n - 1 else n) else d + 7 * n

/-- `nth_weekday_of_month`: when.py 63-163. Inputs which violate the assertions at 115-117 raise AssertionError. The day
numbers of `dti + MonthBegin(month - 1)` and `dti + MonthEnd(month)` at 123-125 are the first day of the month
`month - 1` months later and its last day. -/
def nthWeekdayOfMonth (month week wday : Int) (shift : Option Int) (pi : Frame) (_normalizeBy : Freq) : Except Err (List Time) :=
  if ¬ (1 ≤ month ∧ month ≤ 12) ∨ ¬ (1 ≤ wday ∧ wday ≤ 7) ∨ ¬ ((1 ≤ week ∧ week ≤ 5) ∨ (-5 ≤ week ∧ week ≤ -1)) then
    .error .assertionError
  else do
    let ms := dedup (pi.startTimes.map (fun t => monthOf (dayOf t)))
    let starts := ms.map (fun k => monthStart (k + (month - 1)) * nsDay)
    let ends := ms.map (fun k => (monthStart (k + month) - 1) * nsDay)
    let starts ← maskBy (fun t e => decide (t ≤ e)) starts pi.endTimes
    let ends ← maskBy (fun t e => decide (t ≤ e)) ends pi.endTimes
    let dtw ←
      if week > 0 then
        maskBy (fun t e => decide (t ≤ e)) (starts.map (fun t =>
          addWeeks (dayOf t) (week - (if weekday (dayOf t) = wday - 1 then 1 else 0)) (wday - 1) * nsDay)) ends
      else
        maskBy (fun t s => decide (s ≤ t)) (ends.map (fun t =>
          addWeeks (dayOf t) (week + (if weekday (dayOf t) = wday - 1 then 1 else 0)) (wday - 1) * nsDay)) starts
    return dtw.map (fun t => addOffset t (some { days := shift.getD 0 }))

/-- `dateutil.easter.easter(year, method)` as a day number; `orthodox` is method 2, otherwise method 3 (when.py 190-193,
calendarbase.py 185-189). -/
def easterDay (orthodox : Bool) (y : Int) : Int :=
  let g := y % 19
  let p :=
    if orthodox then
      let i := (19 * g + 15) % 30
      let j := (y + y / 4 + i) % 7
      let e := if y > 1600 then 10 + y / 100 - 16 - (y / 100 - 16) / 4 else 10
      i - j + e
    else
      let c := y / 100
      let h := (c - c / 4 - (8 * c + 13) / 25 + 19 * g + 15) % 30
      let i := h - (h / 28) * (1 - (h / 28) * (29 / (h + 1)) * ((21 - g) / 11))
      let j := (y + y / 4 + i + 2 - c + c / 4) % 7
      i - j
  let d := 1 + (p + 27 + (p + 6) / 40) % 31
  let m := 3 + (p + 26) / 30
  dayNum y m d

/-- `pi.year` of an element of the index: the year of the last day of the (unmultiplied) period. -/
def periodYear (f : Freq) (o : Int) : Int := yearOf (dayOf (f.base.startOf (o + 1) - 1))

/-- `kwargs['days'] = shift`: when.py 195-196. -/
def withShift (kwargs : Option Offset) : Option Int → Option Offset
  | none => kwargs
  | some s => some { (kwargs.getD {}) with days := s }

/-- `from_easter`: when.py 166-218, `from_easter_western` and `from_easter_orthodox`: 221-225.
Simplification: `easter_type` is one of the two permitted values. -/
def fromEaster (orthodox : Bool) (shift : Option Int) (kwargs : Option Offset) (pi : Frame) (normalizeBy : Freq) :
    Except Err (List Time) :=
  let offset := withShift kwargs shift
  let dates := pi.ords.map (fun o => easterDay orthodox (periodYear pi.freq o) * nsDay)
  let dates := ((dates.zip (pi.startTimes.zip pi.endTimes)).filter
    (fun x => decide (x.2.1 ≤ x.1) && decide (x.1 ≤ x.2.2))).map Prod.fst
  let result := dates.map (fun t => snap normalizeBy (addOffset t offset))
  if testTime ≤ addOffset testTime offset then maskBy (fun t e => decide (t ≤ e)) result pi.endTimes
  else maskBy (fun t s => decide (s ≤ t)) result pi.startTimes

end TB
