import Verif.Model.When
import Verif.Model.Timeboard
/-!
# Preconfigured calendars

Models `timeboard/calendars/` (calendarbase.py, US.py, UK.py, RU.py).
-/
namespace TB

/-- A Python dictionary: items in insertion order. -/
abbrev Dict (K V : Type) := List (K × V)

/-- `d[k] = v`. -/
def Dict.set {K V : Type} [DecidableEq K] (d : Dict K V) (k : K) (v : V) : Dict K V :=
  if d.any (fun x => decide (x.1 = k)) then d.map (fun x => if x.1 = k then (k, v) else x) else d ++ [(k, v)]

/-- `d.update(e)`, also a dictionary comprehension (`d` empty) with repeated keys. -/
def Dict.update {K V : Type} [DecidableEq K] (d : Dict K V) (e : List (K × V)) : Dict K V :=
  e.foldl (fun d x => d.set x.1 x.2) d

/-- `k in d`. -/
def Dict.has {K V : Type} [DecidableEq K] (d : Dict K V) (k : K) : Bool := d.any (fun x => decide (x.1 = k))

/-- `d[k]`. -/
def Dict.get? {K V : Type} [DecidableEq K] (d : Dict K V) (k : K) : Option V :=
  (d.find? (fun x => decide (x.1 = k))).map Prod.snd

/-- `try: del d[k] except KeyError: pass`. -/
def Dict.erase {K V : Type} [DecidableEq K] (d : Dict K V) (k : K) : Dict K V := d.filter (fun x => decide (x.1 ≠ k))

/-- A date to seek: (month, weekday, n, shift), the shift being 0 by default. -/
structure SeekDate where
  month : Int
  weekday : Int
  n : Int
  shift : Int := 0
  deriving DecidableEq, Repr

/-- `if weeks[0].start_time < month.start_time: weeks = weeks[1:]`: calendarbase.py 68-69. -/
def dropEarly (freq : Freq) (mStart : Time) : List Int → List Int
  | [] => []
  | w :: ws => if freq.base.startOf w < mStart then ws else w :: ws

/-- One turn of the loop of `nth_weekday_of_month`: calendarbase.py 55-80. The weeks which begin with the given weekday have
the frequency ending with the day before (52-53). -/
def seekOne (year : Int) (s : SeekDate) (raising : Bool) : Except Err (Option Time) :=
  if ¬ (1 ≤ s.month ∧ s.month ≤ 12) ∨ ¬ (1 ≤ s.weekday ∧ s.weekday ≤ 7) ∨
      ¬ ((1 ≤ s.n ∧ s.n ≤ 5) ∨ (-5 ≤ s.n ∧ s.n ≤ -1)) then .error .assertionError
  else
    let n := if s.n > 0 then s.n - 1 else s.n
    let k := 12 * (year - 1970) + (s.month - 1)
    let wend : Fin 7 := ⟨((s.weekday + 5) % 7).toNat, by omega⟩
    let freq := (Denom.W (some wend)).freq
    let mStart := Base.M.startOf k
    let mEnd := Base.M.startOf (k + 1) - 1
    let weeks := periodRange freq mStart mEnd
    match pyGet? (dropEarly freq mStart weeks) n with
    | none => if raising then .error .outOfBounds else .ok none
    | some w => .ok (some (freq.base.startOf w + s.shift * nsDay))

/-- `nth_weekday_of_month`: calendarbase.py 10-82. `raising` is `errors == 'raise'`. -/
def nthWeekdays {V : Type} (year : Int) (seek : List SeekDate) (label : V) (raising : Bool := false) :
    Except Err (Dict Time V) :=
  seek.foldlM (fun d s => do
    match ← seekOne year s raising with
    | none => return d
    | some t => return d.set t label) []

/-- The first step and the step of the search: calendarbase.py 131-143. -/
def extendSteps (how : String) (loc len : Int) : Int × Int :=
  if how = "previous" then (-(loc + 1), -1)
  else if how = "next" then (len - loc, 1)
  else if loc < len / 2 then (-(loc + 1), -1)
  else (len - loc, 1)

/-- `while new_day in amendments: new_day += step`: calendarbase.py 145-146. The loop visits different days of the dictionary,
so `fuel` above the number of items is never used up (`freeDay_free`). -/
def freeDay {V : Type} (d : Dict Time V) (step : Int) : Nat → Time → Time
  | 0, t => t
  | fuel + 1, t => if d.has t then freeDay d step fuel (t + step * nsDay) else t

/-- The body of the loop of `extend_weekends` for one holiday: calendarbase.py 122-147. -/
def extendOne {V : Type} (how : String) (label : Option V) (weekend : List Int) (d : Dict Time V) (holiday : Time) :
    Dict Time V :=
  match weekend.findIdx? (fun w => decide (w = weekday (dayOf holiday))) with
  | none => d
  | some loc => match label.or (d.get? holiday) with
    | none => d
    | some l =>
      let st := extendSteps how loc weekend.length
      d.set (freeDay d st.2 (d.length + 1) (holiday + st.1 * nsDay)) l

/-- `extend_weekends`: calendarbase.py 85-151. The keys of `amendments` are given as points in time. -/
def extendWeekends {V : Type} (amendments : List (Time × V)) (how : String) (label : Option V := none)
    (weekend : List Int := [5, 6]) : Except Err (Dict Time V) :=
  if how ∉ ["previous", "next", "nearest"] then .error .assertionError
  else
    let d := Dict.update [] amendments
    .ok ((sortList (d.map Prod.fst)).foldl (extendOne how label weekend) d)

/-- `from_easter`: calendarbase.py 154-193 (`easter_type` is one of the two permitted values). -/
def easterDates {V : Type} (orthodox : Bool) (year : Int) (shifts : List Int) (label : V) : Dict Time V :=
  Dict.update [] (shifts.map (fun s => ((easterDay orthodox year + s) * nsDay, label)))

/-- A key of the dictionaries of holidays: a string such as '01 Jan 2017' or a timestamp. Both stand for the same
point in time but they are different keys. -/
inductive DKey where
  | str (t : Time)
  | ts (t : Time)
  deriving DecidableEq

/-- `get_timestamp(k)`: core.py 29-33. -/
def DKey.time : DKey → Time
  | .str t => t
  | .ts t => t

/-- Keys which are timestamps. -/
def tsKeys {V : Type} (d : Dict Time V) : Dict DKey V := d.map (fun x => (.ts x.1, x.2))

/-- `range(start_year, end_year + 1)`. -/
def yearRange (a b : Int) : List Int := intRange a (b + 1)

/-- `{"{} {}".format(day, year): label for day, year in product(days, years)}`: US.py 33-34, UK.py 47-48. -/
def fixedDates {V : Type} (days : List (Int × Int)) (years : List Int) (label : V) : List (Time × V) :=
  days.flatMap (fun d => years.map (fun y => (date y d.1 d.2, label)))

/-- The fixed holidays, extended if `long_weekends`: US.py 33-36, UK.py 47-50. -/
def fixedHolidays {V : Type} (days : List (Int × Int)) (years : List Int) (label : V) (longWeekends : Bool) (how : String) :
    Except Err (Dict DKey V) :=
  if longWeekends then do
    let d ← extendWeekends (fixedDates days years label) how
    return tsKeys d
  else .ok (Dict.update [] ((fixedDates days years label).map (fun x => (.str x.1, x.2))))

/-- The items of a table of named holidays which are observed. -/
def observed {A : Type} (doNotObserve : List String) (table : List (String × A)) : List A :=
  (table.filter (fun x => !doNotObserve.contains x.1)).map Prod.snd

/-- `fed_holidays_fixed`: US.py 10-13 (month, day). -/
def usFixed : List (String × (Int × Int)) :=
  [("new_year", (1, 1)), ("independence", (7, 4)), ("veterans", (11, 11)), ("christmas", (12, 25))]

/-- `fed_holidays_floating`: US.py 15-23. -/
def usFloating : List (String × SeekDate) :=
  [("mlk", ⟨1, 1, 3, 0⟩), ("presidents", ⟨2, 1, 3, 0⟩), ("memorial", ⟨5, 1, -1, 0⟩), ("labor", ⟨9, 1, 1, 0⟩),
   ("columbus", ⟨10, 1, 2, 0⟩), ("thanksgiving", ⟨11, 4, 4, 0⟩), ("black_friday", ⟨11, 4, 4, 1⟩)]

/-- One-off days: US.py 45-50. -/
def usOneOff {V : Type} (years : List Int) (dno : List String) (label : V) (d : Dict DKey V) : Dict DKey V :=
  let d := if years.contains 2014 && !dno.contains "xmas_additional_day" then d.set (.ts (date 2018 12 26)) label else d
  let d := if years.contains 2018 && !dno.contains "one_off" then d.set (.ts (date 2018 12 5)) label else d
  if years.contains 2018 && !dno.contains "xmas_additional_day" then d.set (.ts (date 2018 12 24)) label else d

/-- `fed_holidays`: US.py 7-52. -/
def fedHolidays {V : Type} (startYear endYear : Int) (dno : List String) (longWeekends : Bool) (label : V) :
    Except Err (Dict DKey V) := do
  let years := yearRange startYear endYear
  let d ← fixedHolidays (observed dno usFixed) years label longWeekends "nearest"
  let d ← years.foldlM (fun d y => do
    let f ← nthWeekdays y (observed dno usFloating) label
    return d.update (tsKeys f)) d
  return usOneOff years dno label d

/-- `bank_holidays_fixed`: UK.py 11-17. -/
def ukFixed : List (String × (Int × Int)) :=
  [("new_year", (1, 1)), ("new_year2", (1, 2)), ("st_patricks", (3, 17)), ("orangemens", (7, 12)),
   ("st_andrews", (11, 30)), ("christmas", (12, 25)), ("boxing", (12, 26))]

/-- `bank_holidays_floating`: UK.py 19-23, 38. -/
def ukFloating (country : String) : List (String × SeekDate) :=
  [("early_may", ⟨5, 1, 1, 0⟩), ("spring", ⟨5, 1, -1, 0⟩),
   ("summer", if country = "scotland" then ⟨8, 1, 1, 0⟩ else ⟨8, 1, -1, 0⟩)]

/-- `bank_holidays_easter`: UK.py 25-28. -/
def ukEaster : List (String × Int) := [("good_friday", -2), ("easter_monday", 1)]

/-- `do_not_observe` extended according to the country: UK.py 30-41. -/
def ukNotObserved (country : String) (dno : List String) : List String :=
  dno ++ (if country = "england" then ["new_year2", "st_patricks", "orangemens", "st_andrews"] else [])
    ++ (if country = "scotland" then ["st_patricks", "orangemens", "easter_monday"] else [])
    ++ (if country = "northern_ireland" then ["new_year2", "st_andrews"] else [])

/-- One-off days: UK.py 64-81. -/
def ukOneOff {V : Type} (years : List Int) (dno : List String) (label : V) (d : Dict DKey V) : Dict DKey V :=
  let royal := !dno.contains "royal"
  let d := if years.contains 2002 then
      let d := d.erase (.ts (date 2002 5 27))
      if royal then (d.set (.ts (date 2002 6 3)) label).set (.ts (date 2002 6 4)) label else d
    else d
  let d := if years.contains 2011 && royal then d.set (.ts (date 2011 4 29)) label else d
  if years.contains 2012 then
    let d := d.erase (.ts (date 2012 5 28))
    if royal then (d.set (.ts (date 2012 6 4)) label).set (.ts (date 2012 6 5)) label else d
  else d

/-- `bank_holidays`: UK.py 8-83. -/
def bankHolidays {V : Type} (startYear endYear : Int) (country : String) (doNotObserve : List String) (longWeekends : Bool)
    (label : V) : Except Err (Dict DKey V) := do
  let dno := ukNotObserved country doNotObserve
  let years := yearRange startYear endYear
  let d ← fixedHolidays (observed dno ukFixed) years label longWeekends "next"
  let d ← years.foldlM (fun d y => do
    let f ← nthWeekdays y (observed dno (ukFloating country)) label
    return (d.update (tsKeys f)).update (tsKeys (easterDates false y (observed dno ukEaster) label))) d
  return ukOneOff years dno label d

/-- `holidays`: RU.py 7-15. -/
def ruHolidays (startYear endYear : Int) (workOnDec31 : Bool) : Dict Time Int :=
  let dates : List (Int × Int) :=
    [(1, 1), (1, 2), (1, 3), (1, 4), (1, 5), (1, 6), (1, 7), (2, 23), (3, 8), (5, 1), (5, 9), (6, 12), (11, 4)]
      ++ (if workOnDec31 then [] else [(12, 31)])
  Dict.update [] (fixedDates dates (yearRange startYear endYear) 0)

/-- The table of changes: RU.py 19-72 (year, month, day, label). -/
def ruTable (x : Int) : List (Int × Int × Int × Int) :=
  [(2005, 1, 10, 0), (2005, 2, 22, x), (2005, 3, 5, x), (2005, 3, 7, 0), (2005, 5, 2, 0), (2005, 5, 10, 0),
   (2005, 5, 14, 8), (2005, 6, 13, 0), (2005, 11, 3, x),
   (2006, 1, 9, 0), (2006, 2, 22, x), (2006, 2, 24, 0), (2006, 2, 26, 8), (2006, 3, 7, x), (2006, 5, 6, x),
   (2006, 5, 8, 0), (2006, 11, 3, x), (2006, 11, 6, 0),
   (2007, 1, 8, 0), (2007, 2, 22, x), (2007, 3, 7, x), (2007, 4, 28, x), (2007, 4, 30, 0), (2007, 5, 8, x),
   (2007, 6, 9, x), (2007, 6, 11, 0), (2007, 11, 5, 0), (2007, 12, 29, x), (2007, 12, 31, 0),
   (2008, 1, 8, 0), (2008, 2, 22, x), (2008, 2, 25, 0), (2008, 3, 7, x), (2008, 3, 10, 0), (2008, 4, 30, x),
   (2008, 5, 2, 0), (2008, 5, 4, 8), (2008, 5, 8, x), (2008, 6, 7, 8), (2008, 6, 11, x), (2008, 6, 13, 0),
   (2008, 11, 1, x), (2008, 11, 3, 0), (2008, 12, 31, x),
   (2009, 1, 8, 0), (2009, 1, 9, 0), (2009, 1, 11, 8), (2009, 3, 9, 0), (2009, 4, 30, x), (2009, 5, 8, x),
   (2009, 5, 11, 0), (2009, 6, 11, x), (2009, 11, 3, x), (2009, 12, 31, x),
   (2010, 1, 8, 0), (2010, 2, 22, 0), (2010, 2, 27, x), (2010, 4, 30, x), (2010, 5, 3, 0), (2010, 5, 10, 0),
   (2010, 6, 11, x), (2010, 6, 14, 0), (2010, 11, 3, x), (2010, 11, 5, 0), (2010, 11, 13, 8), (2010, 12, 31, x),
   (2011, 1, 10, 0), (2011, 2, 22, x), (2011, 3, 5, x), (2011, 3, 7, 0), (2011, 5, 2, 0), (2011, 6, 13, 0),
   (2011, 11, 3, x),
   (2012, 1, 9, 0), (2012, 2, 22, x), (2012, 3, 7, x), (2012, 3, 9, 0), (2012, 3, 11, 8), (2012, 4, 28, x),
   (2012, 4, 30, 0), (2012, 5, 5, 8), (2012, 5, 7, 0), (2012, 5, 8, 0), (2012, 5, 12, x), (2012, 6, 9, x),
   (2012, 6, 11, 0), (2012, 11, 5, 0), (2012, 12, 29, x), (2012, 12, 31, 0),
   (2013, 1, 8, 0), (2013, 2, 22, x), (2013, 3, 7, x), (2013, 4, 30, x), (2013, 5, 2, 0), (2013, 5, 3, 0),
   (2013, 5, 8, x), (2013, 5, 10, 0), (2013, 6, 11, x), (2013, 12, 31, x),
   (2014, 1, 8, 0), (2014, 2, 24, x), (2014, 3, 7, x), (2014, 3, 10, 0), (2014, 4, 30, x), (2014, 5, 2, 0),
   (2014, 5, 8, x), (2014, 6, 11, x), (2014, 6, 13, 0), (2014, 11, 3, 0), (2014, 12, 31, x),
   (2015, 1, 8, 0), (2015, 1, 9, 0), (2015, 3, 9, 0), (2015, 4, 30, x), (2015, 5, 4, 0), (2015, 5, 8, x),
   (2015, 5, 11, 0), (2015, 6, 11, x), (2015, 11, 3, x), (2015, 12, 31, x),
   (2016, 1, 8, 0), (2016, 2, 20, x), (2016, 2, 22, 0), (2016, 3, 7, 0), (2016, 5, 2, 0), (2016, 5, 3, 0),
   (2016, 6, 13, 0), (2016, 11, 3, x),
   (2017, 2, 22, x), (2017, 2, 24, 0), (2017, 3, 7, x), (2017, 5, 8, 0), (2017, 11, 3, x), (2017, 11, 6, 0),
   (2018, 1, 8, 0), (2018, 2, 22, x), (2018, 3, 7, x), (2018, 3, 9, 0), (2018, 4, 28, x), (2018, 4, 30, 0),
   (2018, 5, 2, 0), (2018, 5, 8, x), (2018, 6, 9, x), (2018, 6, 11, 0), (2018, 11, 5, 0), (2018, 12, 29, x),
   (2018, 12, 31, 0),
   (2019, 1, 8, 0), (2019, 2, 22, x), (2019, 3, 7, x), (2019, 4, 30, x), (2019, 5, 2, 0), (2019, 5, 3, 0),
   (2019, 5, 8, x), (2019, 5, 10, 0), (2019, 6, 11, x), (2019, 12, 31, x),
   (2020, 1, 8, 0), (2020, 2, 24, 0), (2020, 3, 9, 0), (2020, 4, 30, x), (2020, 5, 4, 0), (2020, 5, 5, 0),
   (2020, 5, 8, x), (2020, 5, 11, 0), (2020, 6, 11, x), (2020, 11, 3, x), (2020, 12, 31, x),
   (2021, 1, 8, 0), (2021, 2, 20, x), (2021, 2, 22, 0), (2021, 4, 30, x), (2021, 5, 3, 0), (2021, 5, 10, 0),
   (2021, 6, 11, x), (2021, 6, 14, 0), (2021, 11, 3, x), (2021, 11, 5, 0), (2021, 12, 31, 0)]

/-- `changes`: RU.py 18-74. -/
def ruChanges (eveHours : Int) : Dict Time Int :=
  Dict.update [] ((ruTable eveHours).map (fun r => (date r.1 r.2.1 r.2.2.1, r.2.2.2)))

/-- A preconfigured calendar: the class methods `parameters` (first and last moment; the base unit is one day, the week
has the labels 8, 8, 8, 8, 8, 0, 0) and `amendments` with all parameters but the bounds and the custom amendments given.
US.py 141-167, UK.py 177-202, RU.py 158-188. -/
structure Calendar where
  start : Time
  stop : Time
  builtin : Int → Int → Except Err (Dict DKey Int)

/-- `US.Weekly8x5`: US.py 141-167. -/
def usCalendar (doNotObserve : List String := []) (longWeekends : Bool := true) : Calendar where
  start := date 2000 1 1
  stop := date 2020 12 31 + (23 * nsHour + 59 * nsMin + 59 * nsSec)
  builtin := fun a b => fedHolidays a b doNotObserve longWeekends 0

/-- `UK.Weekly8x5`: UK.py 177-202. -/
def ukCalendar (country : String := "england") (doNotObserve : List String := []) (longWeekends : Bool := true) : Calendar where
  start := date 2000 1 1
  stop := date 2020 12 31 + (23 * nsHour + 59 * nsMin + 59 * nsSec)
  builtin := fun a b => bankHolidays a b country doNotObserve longWeekends 0

/-- `RU.Weekly8x5`: RU.py 158-188. -/
def ruCalendar (workOnDec31 : Bool := true) (shortEves : Bool := true) : Calendar where
  start := date 2005 1 1
  stop := date 2021 12 31 + (23 * nsHour + 59 * nsMin + 59 * nsSec)
  builtin := fun a b => .ok (tsKeys ((ruChanges (if shortEves then 7 else 8)).update (ruHolidays a b workOnDec31)))

/-- `_check_time`: calendarbase.py 304-308. -/
def Calendar.checkTime (c : Calendar) (t : Time) : Except Err Unit :=
  if c.start ≤ t ∧ t ≤ c.stop then .ok () else .error .outOfBounds

/-- `_get_bounds`: calendarbase.py 310-322. -/
def Calendar.getBounds (c : Calendar) (customStart customEnd : Option Time) : Except Err (Time × Time) := do
  let s ← match customStart with
    | none => pure c.start
    | some t => do c.checkTime t; pure t
  let e ← match customEnd with
    | none => pure c.stop
    | some t => do c.checkTime t; pure t
  return (s, e)

/-- `get_period(k, freq='D').start_time`: UK.py 198. -/
def dayStart (t : Time) : Time := dayOf t * nsDay

/-- `amendments` of the preconfigured calendars: US.py 151-167, UK.py 187-202, RU.py 168-188. -/
def Calendar.amendments (c : Calendar) (customStart customEnd : Option Time) (custom : Option (List (Time × Int))) :
    Except Err (Dict DKey Int) := do
  let b ← c.getBounds customStart customEnd
  let result ← c.builtin (yearOf (dayOf b.1)) (yearOf (dayOf b.2))
  match custom with
  | none => return result
  | some cs => return result.update (tsKeys (Dict.update [] (cs.map (fun x => (dayStart x.1, x.2)))))

/-- The arguments of the Timeboard: calendarbase.py 324-340 with `parameters`. -/
def Calendar.args (start stop : Time) (amendments : List (Time × Int)) : Args Int where
  freq := Denom.D.freq
  start := start
  stop := stop
  layout := .organizer (.marker { each := (Denom.W none).freq, ats := [] }) [.pattern (.list [8, 8, 8, 8, 8, 0, 0])]
  amendments := amendments
  selector := fun l => l != 0
  defaultLabel := 0
  worktimeSource := "labels"

/-- `CalendarBase.__new__`: calendarbase.py 324-340. `only_custom_amendments` without custom amendments passes
`amendments=None`, which means none (timeboard.py 185-186). `heap` are the states of RememberingPatterns, there are none. -/
def Calendar.new (c : Calendar) (customStart customEnd : Option Time := none) (doNotAmend onlyCustom : Bool := false)
    (custom : Option (List (Time × Int)) := none) (heap : Heap Int := fun _ => Cycle.start []) : Except Err (Timeboard Int) := do
  let b ← c.getBounds customStart customEnd
  let am ←
    if doNotAmend then pure []
    else if onlyCustom then pure (custom.getD [])
    else do
      let d ← c.amendments (some b.1) (some b.2) custom
      pure (d.map (fun x => (x.1.time, x.2)))
  let r ← Timeboard.new (Calendar.args b.1 b.2 am) heap
  return r.1

end TB
