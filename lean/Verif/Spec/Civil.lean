import Verif.Model.Freq
/-!
# The calendar

Written down independently of the day numbers of the model: lengths of months, the order of days, and the points in time at which
calendar periods begin.
-/
namespace TB

/-- A day of the Gregorian calendar; months from 1 to 12. -/
structure Civil where
  year : Int
  month : Int
  day : Int
  deriving DecidableEq

/-- Years divisible by four, except for the centuries which are not divisible by four hundred. -/
def LeapYear (y : Int) : Prop := (4 ∣ y ∧ ¬ 100 ∣ y) ∨ 400 ∣ y

instance (y : Int) : Decidable (LeapYear y) := inferInstanceAs (Decidable (_ ∨ _))

/-- Thirty days have November, April, June and September. -/
def monthDays (y m : Int) : Int :=
  if m = 2 then (if LeapYear y then 29 else 28) else if m = 4 ∨ m = 6 ∨ m = 9 ∨ m = 11 then 30 else 31

/-- There is such a day. -/
def Civil.Valid (c : Civil) : Prop := 1 ≤ c.month ∧ c.month ≤ 12 ∧ 1 ≤ c.day ∧ c.day ≤ monthDays c.year c.month

instance (c : Civil) : Decidable c.Valid := inferInstanceAs (Decidable (_ ∧ _))

/-- The next day. -/
def Civil.tomorrow (c : Civil) : Civil :=
  if c.day < monthDays c.year c.month then ⟨c.year, c.month, c.day + 1⟩
  else if c.month < 12 then ⟨c.year, c.month + 1, 1⟩
  else ⟨c.year + 1, 1, 1⟩

/-- The attributes `year`, `month`, `day` of the timestamps of a day. -/
def Civil.ofDay (d : Int) : Civil := ⟨yearOf d, monthOf d % 12 + 1, dayOfMonth d⟩

/-- The day (number, from 1970-01-01 = 0) which begins at the point in time has the property. -/
def AtMidnight (x : Time) (p : Int → Prop) : Prop := ∃ d, x = d * nsDay ∧ p d

/-- A calendar period called so begins at the point in time.  The suffix is the last day of weeks (Sunday if not given) and the last
month of years or of one of the quarters (December if not given); 0 is Monday or January. -/
def Denom.Begins (d : Denom) (x : Time) : Prop :=
  match d with
  | .S => ∃ k, x = k * nsSec
  | .T | .min => ∃ k, x = k * nsMin
  | .H => ∃ k, x = k * nsHour
  | .D => AtMidnight x (fun _ => True)
  | .W none => AtMidnight x (fun d => weekday d = 0)
  | .W (some e) => AtMidnight x (fun d => weekday (d - 1) = ((e : Nat) : Int))
  | .M => AtMidnight x (fun d => (Civil.ofDay d).day = 1)
  | .Q none => AtMidnight x (fun d => (Civil.ofDay d).day = 1 ∧ (Civil.ofDay d).month ∈ [1, 4, 7, 10])
  | .Q (some e) => AtMidnight x (fun d => (Civil.ofDay d).day = 1 ∧ 3 ∣ (Civil.ofDay (d - 1)).month - (((e : Nat) : Int) + 1))
  | .A none | .Y none => AtMidnight x (fun d => (Civil.ofDay d).day = 1 ∧ (Civil.ofDay d).month = 1)
  | .A (some e) | .Y (some e) => AtMidnight x (fun d => (Civil.ofDay d).day = 1 ∧ (Civil.ofDay (d - 1)).month = ((e : Nat) : Int) + 1)

end TB
