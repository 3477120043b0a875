import Verif.Spec.Weekday
import Verif.Model.When
/-! Public holidays of the preconfigured calendars, as their users know them. -/
namespace TB

/-- The month `m` (1..12) of year `y` (January 1970 is 0). -/
def monthOfYear (y m : Int) : Int := 12 * (y - 1970) + (m - 1)

/-- The nearest weekday to a day of the weekend: Friday instead of Saturday, Monday instead of Sunday. -/
def NearestWeekday (h x : Int) : Prop := (weekday h = 5 ∧ x = h - 1) ∨ (weekday h = 6 ∧ x = h + 1)

/-- The substitute day of a holiday `h` falling on the weekend: the next weekday which is not a holiday itself and
is not the substitute of another holiday. (`given` has at most two days in a row.) -/
def SubstituteDay (given : Int → Prop) (h x : Int) : Prop :=
  (weekday h = 5 ∧ x = h + 2) ∨
  (weekday h = 6 ∧ ¬ given (h - 1) ∧ ¬ given (h + 1) ∧ x = h + 1) ∨
  (weekday h = 6 ∧ (given (h - 1) ∨ given (h + 1)) ∧ x = h + 2)

/-- US federal holidays on fixed dates of year `y`, without those which are not observed. -/
def USFixed (dno : List String) (y x : Int) : Prop :=
  ("new_year" ∉ dno ∧ x = dayNum y 1 1) ∨
  ("independence" ∉ dno ∧ x = dayNum y 7 4) ∨
  ("veterans" ∉ dno ∧ x = dayNum y 11 11) ∨
  ("christmas" ∉ dno ∧ x = dayNum y 12 25)

/-- US holidays on certain weekdays of year `y`. -/
def USFloating (dno : List String) (y x : Int) : Prop :=
  ("mlk" ∉ dno ∧ IsNthWeekday (monthOfYear y 1) 0 3 x) ∨
  ("presidents" ∉ dno ∧ IsNthWeekday (monthOfYear y 2) 0 3 x) ∨
  ("memorial" ∉ dno ∧ IsNthWeekday (monthOfYear y 5) 0 (-1) x) ∨
  ("labor" ∉ dno ∧ IsNthWeekday (monthOfYear y 9) 0 1 x) ∨
  ("columbus" ∉ dno ∧ IsNthWeekday (monthOfYear y 10) 0 2 x) ∨
  ("thanksgiving" ∉ dno ∧ IsNthWeekday (monthOfYear y 11) 3 4 x) ∨
  ("black_friday" ∉ dno ∧ IsNthWeekday (monthOfYear y 11) 3 4 (x - 1))

/-- UK bank holidays on fixed dates of year `y`. Any other name of the country means all of them. -/
def UKFixed (country : String) (dno : List String) (y x : Int) : Prop :=
  ("new_year" ∉ dno ∧ x = dayNum y 1 1) ∨
  ("new_year2" ∉ dno ∧ country ≠ "england" ∧ country ≠ "northern_ireland" ∧ x = dayNum y 1 2) ∨
  ("st_patricks" ∉ dno ∧ country ≠ "england" ∧ country ≠ "scotland" ∧ x = dayNum y 3 17) ∨
  ("orangemens" ∉ dno ∧ country ≠ "england" ∧ country ≠ "scotland" ∧ x = dayNum y 7 12) ∨
  ("st_andrews" ∉ dno ∧ country ≠ "england" ∧ country ≠ "northern_ireland" ∧ x = dayNum y 11 30) ∨
  ("christmas" ∉ dno ∧ x = dayNum y 12 25) ∨
  ("boxing" ∉ dno ∧ x = dayNum y 12 26)

/-- UK bank holidays on certain weekdays of year `y`, and those depending on Easter. -/
def UKFloating (country : String) (dno : List String) (y x : Int) : Prop :=
  ("early_may" ∉ dno ∧ IsNthWeekday (monthOfYear y 5) 0 1 x) ∨
  ("spring" ∉ dno ∧ IsNthWeekday (monthOfYear y 5) 0 (-1) x) ∨
  ("summer" ∉ dno ∧ country ≠ "scotland" ∧ IsNthWeekday (monthOfYear y 8) 0 (-1) x) ∨
  ("summer" ∉ dno ∧ country = "scotland" ∧ IsNthWeekday (monthOfYear y 8) 0 1 x) ∨
  ("good_friday" ∉ dno ∧ x = easterDay false y - 2) ∨
  ("easter_monday" ∉ dno ∧ country ≠ "scotland" ∧ x = easterDay false y + 1)

/-- US: the days off on account of the holidays of year `y`; with `long_weekends` a holiday on the weekend gives also the
nearest weekday. (The day added for 2014 is not in 2014, see C56.) -/
def USOfYear (dno : List String) (longWeekends : Bool) (y x : Int) : Prop :=
  USFixed dno y x ∨ (longWeekends = true ∧ ∃ h, USFixed dno y h ∧ NearestWeekday h x) ∨ USFloating dno y x ∨
  (y = 2014 ∧ "xmas_additional_day" ∉ dno ∧ x = dayNum 2018 12 26) ∨
  (y = 2018 ∧ "one_off" ∉ dno ∧ x = dayNum 2018 12 5) ∨
  (y = 2018 ∧ "xmas_additional_day" ∉ dno ∧ x = dayNum 2018 12 24)

/-- UK: the royal events and the days to which the spring bank holiday was moved on account of them. -/
def UKRoyal (dno : List String) (y x : Int) : Prop :=
  "royal" ∉ dno ∧
    ((y = 2002 ∧ (x = dayNum 2002 6 3 ∨ x = dayNum 2002 6 4)) ∨ (y = 2011 ∧ x = dayNum 2011 4 29) ∨
     (y = 2012 ∧ (x = dayNum 2012 6 4 ∨ x = dayNum 2012 6 5)))

/-- UK: the days off on account of the holidays of year `y`; with `long_weekends` a holiday on the weekend gives also a
substitute day. The spring bank holiday was moved in 2002 and 2012. -/
def UKOfYear (country : String) (dno : List String) (longWeekends : Bool) (y x : Int) : Prop :=
  UKFixed country dno y x ∨ (longWeekends = true ∧ ∃ h, UKFixed country dno y h ∧ SubstituteDay (UKFixed country dno y) h x) ∨
  (UKFloating country dno y x ∧ x ≠ dayNum 2002 5 27 ∧ x ≠ dayNum 2012 5 28) ∨ UKRoyal dno y x

/-- RU: the holidays of year `y`. -/
def RUHoliday (workOnDec31 : Bool) (y x : Int) : Prop :=
  (∃ k, 1 ≤ k ∧ k ≤ 7 ∧ x = dayNum y 1 k) ∨ x = dayNum y 2 23 ∨ x = dayNum y 3 8 ∨ x = dayNum y 5 1 ∨ x = dayNum y 5 9 ∨ x = dayNum y 6 12 ∨
  x = dayNum y 11 4 ∨ (workOnDec31 = false ∧ x = dayNum y 12 31)

end TB
