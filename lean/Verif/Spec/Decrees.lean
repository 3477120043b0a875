import Verif.Spec.Holidays
/-! The Russian production calendars of 2005-2021, year by year, as published in the decrees: which working days were made days off,
which days were shortened by one hour, which days of weekends were made full working days; and the norms of working time. -/
namespace TB

/-- The decree for a year; days are given as (month, day). -/
structure Decree where
  year : Int
  off : List (Int × Int)
  short : List (Int × Int)
  work : List (Int × Int)

/-- The decrees. -/
def decrees : List Decree := [
  { year := 2005
    off := [(1, 10), (3, 7), (5, 2), (5, 10), (6, 13)]
    short := [(2, 22), (3, 5), (11, 3)]
    work := [(5, 14)] },
  { year := 2006
    off := [(1, 9), (2, 24), (5, 8), (11, 6)]
    short := [(2, 22), (3, 7), (5, 6), (11, 3)]
    work := [(2, 26)] },
  { year := 2007
    off := [(1, 8), (4, 30), (6, 11), (11, 5), (12, 31)]
    short := [(2, 22), (3, 7), (4, 28), (5, 8), (6, 9), (12, 29)]
    work := [] },
  { year := 2008
    off := [(1, 8), (2, 25), (3, 10), (5, 2), (6, 13), (11, 3)]
    short := [(2, 22), (3, 7), (4, 30), (5, 8), (6, 11), (11, 1), (12, 31)]
    work := [(5, 4), (6, 7)] },
  { year := 2009
    off := [(1, 8), (1, 9), (3, 9), (5, 11)]
    short := [(4, 30), (5, 8), (6, 11), (11, 3), (12, 31)]
    work := [(1, 11)] },
  { year := 2010
    off := [(1, 8), (2, 22), (5, 3), (5, 10), (6, 14), (11, 5)]
    short := [(2, 27), (4, 30), (6, 11), (11, 3), (12, 31)]
    work := [(11, 13)] },
  { year := 2011
    off := [(1, 10), (3, 7), (5, 2), (6, 13)]
    short := [(2, 22), (3, 5), (11, 3)]
    work := [] },
  { year := 2012
    off := [(1, 9), (3, 9), (4, 30), (5, 7), (5, 8), (6, 11), (11, 5), (12, 31)]
    short := [(2, 22), (3, 7), (4, 28), (5, 12), (6, 9), (12, 29)]
    work := [(3, 11), (5, 5)] },
  { year := 2013
    off := [(1, 8), (5, 2), (5, 3), (5, 10)]
    short := [(2, 22), (3, 7), (4, 30), (5, 8), (6, 11), (12, 31)]
    work := [] },
  { year := 2014
    off := [(1, 8), (3, 10), (5, 2), (6, 13), (11, 3)]
    short := [(2, 24), (3, 7), (4, 30), (5, 8), (6, 11), (12, 31)]
    work := [] },
  { year := 2015
    off := [(1, 8), (1, 9), (3, 9), (5, 4), (5, 11)]
    short := [(4, 30), (5, 8), (6, 11), (11, 3), (12, 31)]
    work := [] },
  { year := 2016
    off := [(1, 8), (2, 22), (3, 7), (5, 2), (5, 3), (6, 13)]
    short := [(2, 20), (11, 3)]
    work := [] },
  { year := 2017
    off := [(2, 24), (5, 8), (11, 6)]
    short := [(2, 22), (3, 7), (11, 3)]
    work := [] },
  { year := 2018
    off := [(1, 8), (3, 9), (4, 30), (5, 2), (6, 11), (11, 5), (12, 31)]
    short := [(2, 22), (3, 7), (4, 28), (5, 8), (6, 9), (12, 29)]
    work := [] },
  { year := 2019
    off := [(1, 8), (5, 2), (5, 3), (5, 10)]
    short := [(2, 22), (3, 7), (4, 30), (5, 8), (6, 11), (12, 31)]
    work := [] },
  { year := 2020
    off := [(1, 8), (2, 24), (3, 9), (5, 4), (5, 5), (5, 11)]
    short := [(4, 30), (5, 8), (6, 11), (11, 3), (12, 31)]
    work := [] },
  { year := 2021
    off := [(1, 8), (2, 22), (5, 3), (5, 10), (6, 14), (11, 5), (12, 31)]
    short := [(2, 20), (4, 30), (6, 11), (11, 3)]
    work := [] }]

/-- The day `x` of year `y` is in the list of the decree for the year. -/
def Decreed (which : Decree → List (Int × Int)) (y x : Int) : Prop :=
  ∃ r ∈ decrees, r.year = y ∧ ∃ d ∈ which r, x = dayNum y d.1 d.2

instance (which : Decree → List (Int × Int)) (y x : Int) : Decidable (Decreed which y x) := by
  unfold Decreed; infer_instance

instance (w : Bool) (y x : Int) : Decidable (RUHoliday w y x) :=
  decidable_of_iff (x ∈ [dayNum y 1 1, dayNum y 1 2, dayNum y 1 3, dayNum y 1 4, dayNum y 1 5, dayNum y 1 6, dayNum y 1 7, dayNum y 2 23,
      dayNum y 3 8, dayNum y 5 1, dayNum y 5 9, dayNum y 6 12, dayNum y 11 4] ∨ (w = false ∧ x = dayNum y 12 31)) (by
    unfold RUHoliday
    simp only [List.mem_cons, List.not_mem_nil, or_false]
    constructor
    · rintro ((h | h | h | h | h | h | h | h | h | h | h | h | h) | h)
      · exact .inl ⟨1, by decide, by decide, h⟩
      · exact .inl ⟨2, by decide, by decide, h⟩
      · exact .inl ⟨3, by decide, by decide, h⟩
      · exact .inl ⟨4, by decide, by decide, h⟩
      · exact .inl ⟨5, by decide, by decide, h⟩
      · exact .inl ⟨6, by decide, by decide, h⟩
      · exact .inl ⟨7, by decide, by decide, h⟩
      all_goals simp [h]
    · rintro (⟨k, h1, h2, h⟩ | h)
      · have : k = 1 ∨ k = 2 ∨ k = 3 ∨ k = 4 ∨ k = 5 ∨ k = 6 ∨ k = 7 := by omega
        rcases this with rfl | rfl | rfl | rfl | rfl | rfl | rfl <;> simp [h]
      · rcases h with h | h | h | h | h | h | h <;> simp [h])

/-- Working hours of the day `x` of year `y`. -/
def ruHours (workOnDec31 shortEves : Bool) (y x : Int) : Int :=
  if RUHoliday workOnDec31 y x then 0
  else if Decreed Decree.off y x then 0
  else if Decreed Decree.short y x then (if shortEves then 7 else 8)
  else if Decreed Decree.work y x then 8
  else if weekday x < 5 then 8 else 0

/-- The days of year `y`. -/
def daysOfYear (y : Int) : List Int :=
  (List.range (dayNum (y + 1) 1 1 - dayNum y 1 1).toNat).map (fun (i : Nat) => dayNum y 1 1 + i)

/-- The official norms: (year, working days, working hours of a 40-hour week). -/
def norms : List (Int × Int × Int) :=
  [(2005, 248, 1981), (2006, 248, 1980), (2007, 249, 1986), (2008, 250, 1993), (2009, 249, 1987), (2010, 249, 1987), (2011, 248, 1981),
   (2012, 249, 1986), (2013, 247, 1970), (2014, 247, 1970), (2015, 247, 1971), (2016, 247, 1974), (2017, 247, 1973), (2018, 247, 1970),
   (2019, 247, 1970), (2020, 248, 1979), (2021, 247, 1972)]

/-- The years in which 31 December was a working day (shortened by one hour). -/
def workedEves : List Int := [2008, 2009, 2010, 2013, 2014, 2015, 2019, 2020]

end TB
