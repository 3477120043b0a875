import Verif.Props.Calendars
import Verif.Spec.Decrees
/-! # C65: the labels of the Russian calendar follow the decrees -/
namespace TB

/-- The rows of the table are those of the decrees. -/
theorem ruTable_sound (s : Bool) : ∀ r ∈ ruTable (if s then 7 else 8),
    (r.2.2.2 = 0 ∧ ∃ q ∈ decrees, q.year = r.1 ∧ (r.2.1, r.2.2.1) ∈ q.off) ∨
    (r.2.2.2 = (if s then 7 else 8) ∧ ∃ q ∈ decrees, q.year = r.1 ∧ (r.2.1, r.2.2.1) ∈ q.short) ∨
    (r.2.2.2 = 8 ∧ ∃ q ∈ decrees, q.year = r.1 ∧ (r.2.1, r.2.2.1) ∈ q.work) := by
  cases s <;> decide +kernel

theorem ruTable_complete (s : Bool) : ∀ q ∈ decrees,
    (∀ d ∈ q.off, (q.year, d.1, d.2, 0) ∈ ruTable (if s then 7 else 8)) ∧
    (∀ d ∈ q.short, (q.year, d.1, d.2, if s then 7 else 8) ∈ ruTable (if s then 7 else 8)) ∧
    (∀ d ∈ q.work, (q.year, d.1, d.2, 8) ∈ ruTable (if s then 7 else 8)) := by
  cases s <;> decide +kernel

theorem ruTable_year (s : Bool) : ∀ r ∈ ruTable (if s then 7 else 8), yearOf (dayNum r.1 r.2.1 r.2.2.1) = r.1 := by
  cases s <;> decide +kernel

/-- C65. In the Russian calendar the label of a day is 0 if it is a holiday; otherwise 0 if it was made a day off by the decree for
the year, 7 (8 without `short_eves`) if it was shortened, 8 if it was made a working day; otherwise that of its weekday. -/
theorem C65_ru_labels {workOnDec31 shortEves : Bool} {customStart customEnd : Option Time} {heap : Heap Int}
    {tb : Timeboard Int} (h : (ruCalendar workOnDec31 shortEves).new customStart customEnd false false none heap = .ok tb) (t : Time)
    (h1 : tb.startTime ≤ t) (h2 : t ≤ tb.endTime) :
    labelAt (.ok tb) t = .ok (ruHours workOnDec31 shortEves (yearOf (dayOf t)) (dayOf t)) := by
  obtain ⟨r1, r2⟩ := ru_table_labels h t h1 h2
  unfold ruHours
  by_cases hh : RUHoliday workOnDec31 (yearOf (dayOf t)) (dayOf t)
  · rw [if_pos hh]; exact r1 hh
  · rw [if_neg hh]
    obtain ⟨r3, r4⟩ := r2 hh
    split
    · rename_i hd
      obtain ⟨q, hq, hy, d, hd, e⟩ := hd
      have := (ruTable_complete shortEves q hq).1 d hd
      exact r3 _ this (by simp only [hy]; exact e.symm)
    · split
      · rename_i hd
        obtain ⟨q, hq, hy, d, hd, e⟩ := hd
        have := (ruTable_complete shortEves q hq).2.1 d hd
        exact r3 _ this (by simp only [hy]; exact e.symm)
      · split
        · rename_i hd
          obtain ⟨q, hq, hy, d, hd, e⟩ := hd
          have := (ruTable_complete shortEves q hq).2.2 d hd
          exact r3 _ this (by simp only [hy]; exact e.symm)
        · rename_i n1 n2 n3
          refine r4 ?_
          intro r hr e
          have hyr := ruTable_year shortEves r hr
          rw [e] at hyr
          rcases ruTable_sound shortEves r hr with ⟨_, q, hq, hy, hm⟩ | ⟨_, q, hq, hy, hm⟩ | ⟨_, q, hq, hy, hm⟩
          · exact n1 ⟨q, hq, by rw [hy, hyr], _, hm, by simp only [hyr]; exact e.symm⟩
          · exact n2 ⟨q, hq, by rw [hy, hyr], _, hm, by simp only [hyr]; exact e.symm⟩
          · exact n3 ⟨q, hq, by rw [hy, hyr], _, hm, by simp only [hyr]; exact e.symm⟩

/-- The decrees make days off of working days (Monday to Friday) and full working days of days of weekends, and leave holidays alone. -/
theorem C65_decrees_sensible : ∀ q ∈ decrees,
    (∀ d ∈ q.off, weekday (dayNum q.year d.1 d.2) < 5 ∧ ¬ RUHoliday true q.year (dayNum q.year d.1 d.2)) ∧
    (∀ d ∈ q.work, 5 ≤ weekday (dayNum q.year d.1 d.2) ∧ ¬ RUHoliday true q.year (dayNum q.year d.1 d.2)) ∧
    (∀ d ∈ q.short, ¬ RUHoliday true q.year (dayNum q.year d.1 d.2)) := by
  decide +kernel

/-- Sunday 26 February 2006 was a working day, 22 February a short one; 24 February was a day off. -/
example : ruHours true true 2006 (dayNum 2006 2 26) = 8 ∧ ruHours true true 2006 (dayNum 2006 2 22) = 7 ∧
    ruHours true true 2006 (dayNum 2006 2 24) = 0 := by decide +kernel

end TB
