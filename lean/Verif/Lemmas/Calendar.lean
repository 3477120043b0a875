import Verif.Model.Calendar
/-! Laws of the calendar functions. -/
namespace TB

theorem isLeap_iff (y : Int) : isLeap y = true ↔ (y % 4 = 0 ∧ (y % 100 ≠ 0 ∨ y % 400 = 0)) := by
  simp [isLeap]

theorem yearStart_succ (y : Int) :
    yearStart (y + 1) = yearStart y + (if isLeap y then 366 else 365) := by
  unfold yearStart
  by_cases h : isLeap y = true
  · rw [if_pos h]; rw [isLeap_iff] at h; omega
  · rw [if_neg h]; rw [isLeap_iff] at h; omega

theorem yearStart_lt_succ (y : Int) : yearStart y < yearStart (y + 1) := by
  rw [yearStart_succ]; split <;> omega

theorem yearStart_bounds (y : Int) :
    146097 * (y - 1) - 287664800 - 700 ≤ 400 * yearStart y ∧
    400 * yearStart y ≤ 146097 * (y - 1) - 287664800 + 400 := by
  unfold yearStart
  generalize y - 1 = z
  have h4 := Int.mul_ediv_add_emod z 4
  have h100 := Int.mul_ediv_add_emod z 100
  have h400 := Int.mul_ediv_add_emod z 400
  have b4 := Int.emod_nonneg z (show (4:Int) ≠ 0 by decide)
  have b4' := Int.emod_lt_of_pos z (show (0:Int) < 4 by decide)
  have b100 := Int.emod_nonneg z (show (100:Int) ≠ 0 by decide)
  have b100' := Int.emod_lt_of_pos z (show (0:Int) < 100 by decide)
  have b400 := Int.emod_nonneg z (show (400:Int) ≠ 0 by decide)
  have b400' := Int.emod_lt_of_pos z (show (0:Int) < 400 by decide)
  generalize z / 4 = a at *
  generalize z / 100 = b at *
  generalize z / 400 = c at *
  generalize z % 4 = a' at *
  generalize z % 100 = b' at *
  generalize z % 400 = c' at *
  omega

theorem yearOf_spec (d : Int) : yearStart (yearOf d) ≤ d ∧ d < yearStart (yearOf d + 1) := by
  unfold yearOf
  simp only
  generalize hg : 1970 + d * 400 / 146097 = g
  have hg' : 146097 * (g - 1970) ≤ d * 400 ∧ d * 400 < 146097 * (g - 1970) + 146097 := by omega
  clear hg
  have b0 := yearStart_bounds (g - 1)
  have b1 := yearStart_bounds g
  have b2 := yearStart_bounds (g + 1)
  have b3 := yearStart_bounds (g + 1 + 1)
  have e : g - 1 + 1 = g := by omega
  split
  · rw [e]; omega
  · split <;> omega

theorem daysBefore_zero (y : Int) : daysBefore y 0 = 0 := by simp [daysBefore, cumDays]

theorem daysBefore_twelve (y : Int) : daysBefore y 12 = if isLeap y then 366 else 365 := by
  simp [daysBefore, cumDays]; split <;> rfl

theorem daysBefore_step (y m : Int) (h0 : 0 ≤ m) (h1 : m < 12) :
    daysBefore y m + 28 ≤ daysBefore y (m + 1) ∧ daysBefore y (m + 1) ≤ daysBefore y m + 31 := by
  have : m = 0 ∨ m = 1 ∨ m = 2 ∨ m = 3 ∨ m = 4 ∨ m = 5 ∨ m = 6 ∨ m = 7 ∨ m = 8 ∨ m = 9 ∨ m = 10 ∨ m = 11 := by
    omega
  rcases this with h | h | h | h | h | h | h | h | h | h | h | h <;> subst h <;>
    cases hl : isLeap y <;> simp [daysBefore, cumDays, hl]

theorem monthStart_step (k : Int) :
    monthStart k + 28 ≤ monthStart (k + 1) ∧ monthStart (k + 1) ≤ monthStart k + 31 := by
  unfold monthStart
  by_cases h : k % 12 = 11
  · have e1 : (k + 1) / 12 = k / 12 + 1 := by omega
    have e2 : (k + 1) % 12 = 0 := by omega
    rw [e1, e2, daysBefore_zero, h]
    have := daysBefore_step (1970 + k / 12) 11 (by omega) (by omega)
    have h12 := daysBefore_twelve (1970 + k / 12)
    have hs := yearStart_succ (1970 + k / 12)
    have e3 : 1970 + (k / 12 + 1) = 1970 + k / 12 + 1 := by omega
    rw [e3]
    simp only [show (11 : Int) + 1 = 12 from rfl] at this
    omega
  · have e1 : (k + 1) / 12 = k / 12 := by omega
    have e2 : (k + 1) % 12 = k % 12 + 1 := by omega
    rw [e1, e2]
    have := daysBefore_step (1970 + k / 12) (k % 12) (by omega) (by omega)
    omega

theorem monthStart_lt_succ (k : Int) : monthStart k < monthStart (k + 1) := by
  have := monthStart_step k; omega

theorem monthInYear_spec (y r : Int) (h0 : 0 ≤ r) (h1 : r < daysBefore y 12) :
    0 ≤ monthInYear y r ∧ monthInYear y r < 12 ∧
    daysBefore y (monthInYear y r) ≤ r ∧ r < daysBefore y (monthInYear y r + 1) := by
  have hz := daysBefore_zero y
  unfold monthInYear
  repeat' split
  all_goals refine ⟨by omega, by omega, ?_, ?_⟩ <;> (try simp only [Int.reduceAdd]) <;> omega

theorem monthOf_spec (d : Int) : monthStart (monthOf d) ≤ d ∧ d < monthStart (monthOf d + 1) := by
  obtain ⟨h1, h2⟩ := yearOf_spec d
  have hs := yearStart_succ (yearOf d)
  have h12 := daysBefore_twelve (yearOf d)
  obtain ⟨m0, m1, m2, m3⟩ := monthInYear_spec (yearOf d) (d - yearStart (yearOf d)) (by omega) (by omega)
  unfold monthOf
  generalize hm : monthInYear (yearOf d) (d - yearStart (yearOf d)) = m at *
  generalize hy : yearOf d = y at *
  have e1 : (12 * (y - 1970) + m) / 12 = y - 1970 := by omega
  have e2 : (12 * (y - 1970) + m) % 12 = m := by omega
  have e3 : 1970 + (y - 1970) = y := by omega
  constructor
  · unfold monthStart; rw [e1, e2, e3]; omega
  · by_cases hm11 : m = 11
    · subst hm11
      have e4 : (12 * (y - 1970) + 11 + 1) / 12 = y - 1970 + 1 := by omega
      have e5 : (12 * (y - 1970) + 11 + 1) % 12 = 0 := by omega
      have e6 : 1970 + (y - 1970 + 1) = y + 1 := by omega
      unfold monthStart; rw [e4, e5, e6, daysBefore_zero]; omega
    · have e4 : (12 * (y - 1970) + m + 1) / 12 = y - 1970 := by omega
      have e5 : (12 * (y - 1970) + m + 1) % 12 = m + 1 := by omega
      unfold monthStart; rw [e4, e5, e3]; omega

end TB
