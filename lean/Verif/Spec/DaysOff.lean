import Verif.Spec.Holidays
import Verif.Spec.Decrees
/-! How many weekdays a year of the British and American calendars gives off. -/
namespace TB

/-- The weekdays (Monday to Friday) of a year. -/
def weekdaysOf (y : Int) : List Int := (daysOfYear y).filter (fun D => decide (weekday D < 5))

/-- The bank holidays of a part of the United Kingdom, by the names of `do_not_observe`; all of them if the name of the country is another one. -/
def ukNames (country : String) : List String :=
  ["new_year", "christmas", "boxing", "early_may", "spring", "summer", "good_friday"] ++
  (if country = "england" then ["easter_monday"]
   else if country = "scotland" then ["new_year2", "st_andrews"]
   else if country = "northern_ireland" then ["st_patricks", "orangemens", "easter_monday"]
   else ["new_year2", "st_patricks", "orangemens", "st_andrews", "easter_monday"])

/-- The extra days of 2002, 2011 and 2012, among them the spring bank holidays moved to June. -/
def royalDays (y : Int) : Int := if y = 2002 then 2 else if y = 2011 then 1 else if y = 2012 then 2 else 0

/-- The number of weekdays off of year `y`: one for each holiday that is observed, except that the spring bank holiday of 2002 and 2012 is among the royal events. -/
def ukDaysOff (country : String) (dno : List String) (y : Int) : Int :=
  ((ukNames country).filter (fun n => !dno.contains n)).length
  - (if "spring" ∉ dno ∧ (y = 2002 ∨ y = 2012) then 1 else 0)
  + (if "royal" ∉ dno then royalDays y else 0)

/-- The American holidays, by the names of `do_not_observe`. -/
def usNames : List String :=
  ["new_year", "independence", "veterans", "christmas", "mlk", "presidents", "memorial", "labor", "columbus", "thanksgiving", "black_friday"]

/-- The number of weekdays off of year `y` in a calendar which deals with the years from `first` to `last`: one for each holiday that is observed,
except that the New Year's day on a Saturday gives a day off of the previous year; and the additional days of 2018, of which that of 26 December belongs to
2014 (C56). -/
def usDaysOff (dno : List String) (first last y : Int) : Int :=
  (usNames.filter (fun n => !dno.contains n)).length
  - (if "new_year" ∉ dno ∧ weekday (dayNum y 1 1) = 5 then 1 else 0)
  + (if "new_year" ∉ dno ∧ weekday (dayNum (y + 1) 1 1) = 5 ∧ y + 1 ≤ last then 1 else 0)
  + (if y = 2018 ∧ "one_off" ∉ dno then 1 else 0)
  + (if y = 2018 ∧ "xmas_additional_day" ∉ dno then 1 else 0)
  + (if y = 2018 ∧ "xmas_additional_day" ∉ dno ∧ first ≤ 2014 then 1 else 0)

end TB
