import Verif.Model.Basic
/-!
# The calendar supplied by pandas / datetime

The proleptic Gregorian calendar on integers.  Day numbers count from 1970-01-01 = 0.
This is the part of pandas / datetime on which timeboard relies (`pd.Period`, `pd.Timestamp`).
-/
namespace TB

/-- Nanoseconds in a second (`pd.Timedelta(1, 's')`, used at core.py 252-253, 440). -/
def nsSec : Int := 1000000000
/-- Nanoseconds in a minute. -/
def nsMin : Int := 60000000000
/-- Nanoseconds in an hour. -/
def nsHour : Int := 3600000000000
/-- Nanoseconds in a day. -/
def nsDay : Int := 86400000000000

/-- Gregorian leap year rule. -/
def isLeap (y : Int) : Bool := y % 4 == 0 && (y % 100 != 0 || y % 400 == 0)

/-- Day number of 1 January of year `y`. -/
def yearStart (y : Int) : Int := 365 * (y - 1) + (y - 1) / 4 - (y - 1) / 100 + (y - 1) / 400 - 719162

/-- Days of a common year before the month number `m` (0 = January, 12 = end of year). -/
def cumDays (m : Int) : Int :=
  if m ≤ 0 then 0 else if m ≤ 1 then 31 else if m ≤ 2 then 59 else if m ≤ 3 then 90
  else if m ≤ 4 then 120 else if m ≤ 5 then 151 else if m ≤ 6 then 181 else if m ≤ 7 then 212
  else if m ≤ 8 then 243 else if m ≤ 9 then 273 else if m ≤ 10 then 304 else if m ≤ 11 then 334
  else 365

/-- Days of year `y` before its month number `m` (0 = January). -/
def daysBefore (y m : Int) : Int := cumDays m + (if isLeap y && decide (2 ≤ m) then 1 else 0)

/-- Day number of the first day of month `k`; months are numbered from January 1970 = 0
(the ordinal of a pandas Period with freq='M'). -/
def monthStart (k : Int) : Int := yearStart (1970 + k / 12) + daysBefore (1970 + k / 12) (k % 12)

/-- The year containing the day number `d` (`Timestamp.year`): a guess from the mean length of the
year, corrected by at most one. -/
def yearOf (d : Int) : Int :=
  let g := 1970 + d * 400 / 146097
  if d < yearStart g then g - 1 else if yearStart (g + 1) ≤ d then g + 1 else g

/-- The number (0..11) of the month of the day with number `r` within year `y`. -/
def monthInYear (y r : Int) : Int :=
  if r < daysBefore y 1 then 0 else if r < daysBefore y 2 then 1 else if r < daysBefore y 3 then 2
  else if r < daysBefore y 4 then 3 else if r < daysBefore y 5 then 4 else if r < daysBefore y 6 then 5
  else if r < daysBefore y 7 then 6 else if r < daysBefore y 8 then 7 else if r < daysBefore y 9 then 8
  else if r < daysBefore y 10 then 9 else if r < daysBefore y 11 then 10 else 11

/-- The month ordinal (January 1970 = 0) containing the day number `d`. -/
def monthOf (d : Int) : Int :=
  12 * (yearOf d - 1970) + monthInYear (yearOf d) (d - yearStart (yearOf d))

/-- Day number of the date `y-m-d` (`m` from 1 to 12): `datetime.date(y, m, d)`. -/
def dayNum (y m d : Int) : Int := monthStart (12 * (y - 1970) + (m - 1)) + (d - 1)

/-- Day of month (1..31) of a day number (`Timestamp.day`). -/
def dayOfMonth (d : Int) : Int := d - monthStart (monthOf d) + 1

/-- `Timestamp.weekday()`: Monday = 0 ... Sunday = 6 (1970-01-01 was a Thursday). -/
def weekday (d : Int) : Int := (d + 3) % 7

/-- Day number of a point in time. -/
def dayOf (t : Time) : Int := t / nsDay

/-- The point in time at 00:00 of the date `y-m-d`: `pd.Timestamp(year=y, month=m, day=d)`. -/
def date (y m d : Int) : Time := dayNum y m d * nsDay

end TB
