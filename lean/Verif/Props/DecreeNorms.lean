import Verif.Spec.Decrees
/-! # C65: the working time of the years of the Russian calendar -/
namespace TB

/-- The number of positive elements and the sum. -/
def tally : List Int → Int × Int
  | [] => (0, 0)
  | h :: hs => let r := tally hs; (r.1 + (if 0 < h then 1 else 0), r.2 + h)

theorem tally_spec (hs : List Int) : tally hs = (((hs.filter (fun h => decide (0 < h))).length : Int), hs.sum) := by
  induction hs with
  | nil => rfl
  | cons h hs ih =>
    simp only [tally, ih, List.filter_cons, List.sum_cons]
    by_cases h0 : 0 < h
    · simp [h0, Int.add_comm]
    · simp [h0, Int.add_comm]

/-- The working days and hours of a year of the Russian calendar, given the official norms: without work on 31 December one day and its 7 hours less if it was worked on,
without short eves 8 hours for each day. -/
def ruYear (workOnDec31 shortEves : Bool) (p : Int × Int × Int) : Int × Int :=
  let days := if workOnDec31 = false ∧ p.1 ∈ workedEves then p.2.1 - 1 else p.2.1
  (days, if shortEves then (if workOnDec31 = false ∧ p.1 ∈ workedEves then p.2.2 - 7 else p.2.2) else 8 * days)

theorem ru_year_2005 : ∀ w s : Bool, tally ((daysOfYear 2005).map (ruHours w s 2005)) = ruYear w s (2005, 248, 1981) := by decide +kernel
theorem ru_year_2006 : ∀ w s : Bool, tally ((daysOfYear 2006).map (ruHours w s 2006)) = ruYear w s (2006, 248, 1980) := by decide +kernel
theorem ru_year_2007 : ∀ w s : Bool, tally ((daysOfYear 2007).map (ruHours w s 2007)) = ruYear w s (2007, 249, 1986) := by decide +kernel
theorem ru_year_2008 : ∀ w s : Bool, tally ((daysOfYear 2008).map (ruHours w s 2008)) = ruYear w s (2008, 250, 1993) := by decide +kernel
theorem ru_year_2009 : ∀ w s : Bool, tally ((daysOfYear 2009).map (ruHours w s 2009)) = ruYear w s (2009, 249, 1987) := by decide +kernel
theorem ru_year_2010 : ∀ w s : Bool, tally ((daysOfYear 2010).map (ruHours w s 2010)) = ruYear w s (2010, 249, 1987) := by decide +kernel
theorem ru_year_2011 : ∀ w s : Bool, tally ((daysOfYear 2011).map (ruHours w s 2011)) = ruYear w s (2011, 248, 1981) := by decide +kernel
theorem ru_year_2012 : ∀ w s : Bool, tally ((daysOfYear 2012).map (ruHours w s 2012)) = ruYear w s (2012, 249, 1986) := by decide +kernel
theorem ru_year_2013 : ∀ w s : Bool, tally ((daysOfYear 2013).map (ruHours w s 2013)) = ruYear w s (2013, 247, 1970) := by decide +kernel
theorem ru_year_2014 : ∀ w s : Bool, tally ((daysOfYear 2014).map (ruHours w s 2014)) = ruYear w s (2014, 247, 1970) := by decide +kernel
theorem ru_year_2015 : ∀ w s : Bool, tally ((daysOfYear 2015).map (ruHours w s 2015)) = ruYear w s (2015, 247, 1971) := by decide +kernel
theorem ru_year_2016 : ∀ w s : Bool, tally ((daysOfYear 2016).map (ruHours w s 2016)) = ruYear w s (2016, 247, 1974) := by decide +kernel
theorem ru_year_2017 : ∀ w s : Bool, tally ((daysOfYear 2017).map (ruHours w s 2017)) = ruYear w s (2017, 247, 1973) := by decide +kernel
theorem ru_year_2018 : ∀ w s : Bool, tally ((daysOfYear 2018).map (ruHours w s 2018)) = ruYear w s (2018, 247, 1970) := by decide +kernel
theorem ru_year_2019 : ∀ w s : Bool, tally ((daysOfYear 2019).map (ruHours w s 2019)) = ruYear w s (2019, 247, 1970) := by decide +kernel
theorem ru_year_2020 : ∀ w s : Bool, tally ((daysOfYear 2020).map (ruHours w s 2020)) = ruYear w s (2020, 248, 1979) := by decide +kernel
theorem ru_year_2021 : ∀ w s : Bool, tally ((daysOfYear 2021).map (ruHours w s 2021)) = ruYear w s (2021, 247, 1972) := by decide +kernel

theorem ru_year : ∀ p ∈ norms, ∀ w s : Bool, tally ((daysOfYear p.1).map (ruHours w s p.1)) = ruYear w s p := by
  intro p hp
  simp only [norms, List.mem_cons, List.not_mem_nil, or_false] at hp
  rcases hp with rfl | rfl | rfl | rfl | rfl | rfl | rfl | rfl | rfl | rfl | rfl | rfl | rfl | rfl | rfl | rfl | rfl
  · exact ru_year_2005
  · exact ru_year_2006
  · exact ru_year_2007
  · exact ru_year_2008
  · exact ru_year_2009
  · exact ru_year_2010
  · exact ru_year_2011
  · exact ru_year_2012
  · exact ru_year_2013
  · exact ru_year_2014
  · exact ru_year_2015
  · exact ru_year_2016
  · exact ru_year_2017
  · exact ru_year_2018
  · exact ru_year_2019
  · exact ru_year_2020
  · exact ru_year_2021

/-- C65. The numbers of days with a positive label and the sums of the labels over the years of the calendar are the official norms of
working days and hours. -/
theorem C65_norms : ∀ p ∈ norms,
    (((((daysOfYear p.1).map (ruHours true true p.1)).filter (fun h => decide (0 < h))).length : Int) = p.2.1) ∧
    ((daysOfYear p.1).map (ruHours true true p.1)).sum = p.2.2 := by
  intro p hp
  have h := ru_year p hp true true
  rw [tally_spec, Prod.mk.injEq] at h
  exact h

end TB
