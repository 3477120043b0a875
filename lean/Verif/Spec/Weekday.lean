import Verif.Model.Calendar
/-! Counting weekdays in a month. -/
namespace TB

/-- How many of the days from `a` to `b` inclusive are the given weekday (0 is Monday). -/
def countWeekday (wd a b : Int) : Nat := ((intRange a (b + 1)).filter (fun x => decide (weekday x = wd))).length

/-- Day number `d` is the `n`-th such weekday of month `k` (January 1970 is 0); counted from the end of the month if `n` is
negative: -1 is the last one. -/
def IsNthWeekday (k wd n d : Int) : Prop :=
  monthStart k ≤ d ∧ d < monthStart (k + 1) ∧ weekday d = wd ∧
  ((0 < n ∧ (countWeekday wd (monthStart k) d : Int) = n) ∨ (n < 0 ∧ (countWeekday wd d (monthStart (k + 1) - 1) : Int) = -n))

end TB
