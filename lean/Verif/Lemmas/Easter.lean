import Verif.Model.When
import Verif.Spec.Easter
/-! The date of Easter. -/
namespace TB
theorem easter_aux (y p : Int) (h0 : -6 ≤ p) (h1 : p ≤ 63) :
   dayNum y (3 + (p + 26) / 30) (1 + (p + 27 + (p + 6) / 40) % 31) = dayNum y 3 28 + p := by
  have hm : (p + 26) / 30 = 0 ∨ (p + 26) / 30 = 1 ∨ (p + 26) / 30 = 2 := by omega
  have e1 : (12 * (y - 1970) + (3 - 1)) / 12 = y - 1970 := by omega
  have e2 : (12 * (y - 1970) + (3 + 1 - 1)) / 12 = y - 1970 := by omega
  have e3 : (12 * (y - 1970) + (3 + 2 - 1)) / 12 = y - 1970 := by omega
  have f1 : (12 * (y - 1970) + (3 - 1)) % 12 = 2 := by omega
  have f2 : (12 * (y - 1970) + (3 + 1 - 1)) % 12 = 3 := by omega
  have f3 : (12 * (y - 1970) + (3 + 2 - 1)) % 12 = 4 := by omega
  unfold dayNum monthStart
  rcases hm with hm | hm | hm <;> rw [hm] <;> simp only [Int.add_zero, e1, e2, e3, f1, f2, f3, daysBefore, cumDays] <;>
   (simp; omega)

theorem march28 (y : Int) : (dayNum y 3 28 : Int) = yearStart y + 86 + (if isLeap y then 1 else 0) := by
  have e1 : (12 * (y - 1970) + (3 - 1)) / 12 = y - 1970 := by omega
  have f1 : (12 * (y - 1970) + (3 - 1)) % 12 = 2 := by omega
  unfold dayNum monthStart
  simp only [e1, f1, daysBefore, cumDays]
  simp only [show (1970 + (y - 1970) : Int) = y by omega]
  simp
  omega

/-- The date of the western Easter relative to 28 March. -/
def westernP (y : Int) : Int :=
      let g := y % 19
      let c := y / 100
      let h := (c - c / 4 - (8 * c + 13) / 25 + 19 * g + 15) % 30
      let i := h - (h / 28) * (1 - (h / 28) * (29 / (h + 1)) * ((21 - g) / 11))
      let j := (y + y / 4 + i + 2 - c + c / 4) % 7
      i - j

theorem western_i (h g : Int) (h0 : 0 ≤ h) (h1 : h < 30) (g0 : 0 ≤ g) (g1 : g < 19) : 
  0 ≤ h - (h / 28) * (1 - (h / 28) * (29 / (h + 1)) * ((21 - g) / 11)) ∧ h - (h / 28) * (1 - (h / 28) * (29 / (h + 1)) * ((21 - g) / 11)) ≤ 28 := by
  have : h < 28 ∨ h = 28 ∨ h = 29 := by omega
  rcases this with h2 | rfl | rfl
  · have : h / 28 = 0 := by omega
    simp [this]; omega
  · simp; omega
  · simp


theorem yearStart_leap (y : Int) : yearStart y + 86 + (if isLeap y then 1 else 0) = 365 * y + y / 4 - y / 100 + y / 100 / 4 - 719441 := by
  have e0 : y / 100 / 4 = y / 400 := by omega
  rw [e0]
  have e1 : y / 4 = (y - 1) / 4 + if y % 4 = 0 then 1 else 0 := by split <;> omega
  have e2 : y / 100 = (y - 1) / 100 + if y % 100 = 0 then 1 else 0 := by split <;> omega
  have e3 : y / 400 = (y - 1) / 400 + if y % 400 = 0 then 1 else 0 := by split <;> omega
  have e4 : y % 400 = 0 → y % 100 = 0 := by omega
  have e5 : y % 100 = 0 → y % 4 = 0 := by omega
  unfold yearStart isLeap
  rw [e1, e2, e3]
  by_cases h1 : y % 4 = 0 <;> by_cases h2 : y % 100 = 0 <;> by_cases h3 : y % 400 = 0 <;> simp [h1, h2, h3] <;> omega

theorem western_weekday (y i : Int) : weekday (dayNum y 3 28 + (i - (y + y / 4 + i + 2 - y / 100 + y / 100 / 4) % 7)) = 6 := by
  rw [march28, yearStart_leap]
  unfold weekday
  omega


theorem orthodox_weekday (y i : Int) : weekday (dayNum y 3 28 + (i - (y + y / 4 + i) % 7 + (10 + y / 100 - 16 - (y / 100 - 16) / 4))) = 6 := by
  rw [march28, yearStart_leap]
  have : (y / 100 - 16) / 4 = y / 100 / 4 - 4 := by omega
  rw [this]
  unfold weekday
  omega

theorem easterDay_western (y : Int) : easterDay false y = dayNum y 3 28 + westernP y := by
  rw [← easter_aux]
  · rfl
  · have := western_i ((y / 100 - y / 100 / 4 - (8 * (y / 100) + 13) / 25 + 19 * (y % 19) + 15) % 30) (y % 19) (by omega) (by omega) (by omega) (by omega)
    simp only [westernP]
    omega
  · have := western_i ((y / 100 - y / 100 / 4 - (8 * (y / 100) + 13) / 25 + 19 * (y % 19) + 15) % 30) (y % 19) (by omega) (by omega) (by omega) (by omega)
    simp only [westernP]
    omega

theorem easterDay_orthodox (y : Int) (h0 : 1583 ≤ y) (h1 : y ≤ 4099) : easterDay true y = dayNum y 3 28 +
  ((19 * (y % 19) + 15) % 30 - (y + y / 4 + (19 * (y % 19) + 15) % 30) % 7 + (10 + y / 100 - 16 - (y / 100 - 16) / 4)) := by
  rw [← easter_aux _ _ (by omega) (by omega)]
  unfold easterDay
  simp only [↓reduceIte]
  have : (if y > 1600 then 10 + y / 100 - 16 - (y / 100 - 16) / 4 else 10) = 10 + y / 100 - 16 - (y / 100 - 16) / 4 := by
    split <;> omega
  rw [this]

theorem easter_sunday (y : Int) : weekday (easterDay false y) = 6 := by
  rw [easterDay_western]
  exact western_weekday y _

/-- March and April of a date formula. -/
theorem paschal_date (y r : Int) (h0 : 0 ≤ r) (h1 : r ≤ 35) : dayNum y ((r + 114) / 31) ((r + 114) % 31 + 1) = dayNum y 3 28 + (r - 6) := by
  have hm : (r + 114) / 31 = 3 ∨ (r + 114) / 31 = 4 := by omega
  have e1 : (12 * (y - 1970) + (3 - 1)) / 12 = y - 1970 := by omega
  have e2 : (12 * (y - 1970) + (4 - 1)) / 12 = y - 1970 := by omega
  have f1 : (12 * (y - 1970) + (3 - 1)) % 12 = 2 := by omega
  have f2 : (12 * (y - 1970) + (4 - 1)) % 12 = 3 := by omega
  unfold dayNum monthStart
  rcases hm with hm | hm <;> rw [hm] <;> simp only [e1, e2, f1, f2, daysBefore, cumDays] <;>
   (simp; omega)

theorem easterDay_western_eq (y : Int) : easterDay false y = dayNum y (gregorianEaster y).1 (gregorianEaster y).2 := by
  have key : ∀ r : Int, 0 ≤ r → r ≤ 35 → dayNum y ((r + 114) / 31) ((r + 114) % 31 + 1) = dayNum y 3 28 + (r - 6) := by
    intro r h0 h1
    exact paschal_date y r h0 h1
  have hh : (y / 100 - y / 100 / 4 - (8 * (y / 100) + 13) / 25 + 19 * (y % 19) + 15) % 30 = 
    (19 * (y % 19) + y / 100 - y / 100 / 4 - (y / 100 - (y / 100 + 8) / 25 + 1) / 3 + 15) % 30 := by
    have e : (8 * (y / 100) + 13) / 25 = (y / 100 - (y / 100 + 8) / 25 + 1) / 3 := by
      have hq : ∃ q r : Int, y / 100 = 25 * q + r ∧ 0 ≤ r ∧ r < 25 := ⟨y / 100 / 25, y / 100 % 25, by omega⟩
      obtain ⟨q, r, e, h0, h1⟩ := hq
      rw [e]
      have e1 : (8 * (25 * q + r) + 13) / 25 = 8 * q + (8 * r + 13) / 25 := by omega
      have e2 : (25 * q + r - (25 * q + r + 8) / 25 + 1) / 3 = 8 * q + (r - (r + 8) / 25 + 1) / 3 := by omega
      rw [e1, e2]
      have : r = 0 ∨ r = 1 ∨ r = 2 ∨ r = 3 ∨ r = 4 ∨ r = 5 ∨ r = 6 ∨ r = 7 ∨ r = 8 ∨ r = 9 ∨ r = 10 ∨ r = 11 ∨ r = 12 ∨ r = 13 ∨ r = 14 ∨
        r = 15 ∨ r = 16 ∨ r = 17 ∨ r = 18 ∨ r = 19 ∨ r = 20 ∨ r = 21 ∨ r = 22 ∨ r = 23 ∨ r = 24 := by omega
      rcases this with rfl | rfl | rfl | rfl | rfl | rfl | rfl | rfl | rfl | rfl | rfl | rfl | rfl | rfl | rfl | rfl | rfl | rfl | rfl | rfl | rfl | rfl | rfl | rfl | rfl <;> omega
    rw [e]
    congr 1
    omega
  have hr := western_i ((y / 100 - y / 100 / 4 - (8 * (y / 100) + 13) / 25 + 19 * (y % 19) + 15) % 30) (y % 19) (by omega) (by omega) (by omega) (by omega)
  rw [easterDay_western]
  unfold gregorianEaster westernP
  simp only
  rw [← hh] at *
  have hb : 0 ≤ (y / 100 - y / 100 / 4 - (8 * (y / 100) + 13) / 25 + 19 * (y % 19) + 15) % 30 ∧ 
    (y / 100 - y / 100 / 4 - (8 * (y / 100) + 13) / 25 + 19 * (y % 19) + 15) % 30 < 30 := by omega
  clear hh
  generalize (y / 100 - y / 100 / 4 - (8 * (y / 100) + 13) / 25 + 19 * (y % 19) + 15) % 30 = h at *
  have hc : h < 28 ∨ h = 28 ∧ y % 19 < 11 ∨ h = 28 ∧ 11 ≤ y % 19 ∨ h = 29 := by omega
  have hi : h < 28 ∧ h - (h / 28) * (1 - (h / 28) * (29 / (h + 1)) * ((21 - y % 19) / 11)) = h ∨ 
    h = 28 ∧ y % 19 < 11 ∧ h - (h / 28) * (1 - (h / 28) * (29 / (h + 1)) * ((21 - y % 19) / 11)) = 28 ∨
    h = 28 ∧ 11 ≤ y % 19 ∧ h - (h / 28) * (1 - (h / 28) * (29 / (h + 1)) * ((21 - y % 19) / 11)) = 27 ∨
    h = 29 ∧ h - (h / 28) * (1 - (h / 28) * (29 / (h + 1)) * ((21 - y % 19) / 11)) = 28 := by
    rcases hc with h2 | ⟨rfl, h2⟩ | ⟨rfl, h2⟩ | rfl
    · have : h / 28 = 0 := by omega
      simp [this]; omega
    · simp; omega
    · simp; omega
    · simp
  generalize h - (h / 28) * (1 - (h / 28) * (29 / (h + 1)) * ((21 - y % 19) / 11)) = i at *
  have hl : (32 + 2 * (y / 100 % 4) + 2 * (y % 100 / 4) - h - y % 100 % 4) % 7 = (32 - y - y / 4 - h + y / 100 - y / 100 / 4) % 7 := by
    omega
  rw [hl, key]
  · clear hc hl key
    have e1 : (y + y / 4 + i + 2 - y / 100 + y / 100 / 4) % 7 = (y + y / 4 - y / 100 + y / 100 / 4 + i + 2) % 7 := by congr 1; omega
    have e2 : (32 - y - y / 4 - h + y / 100 - y / 100 / 4) % 7 = (32 - (y + y / 4 - y / 100 + y / 100 / 4 + h)) % 7 := by congr 1; omega
    rw [e1, e2]
    generalize y + y / 4 - y / 100 + y / 100 / 4 = z
    have hg : 0 ≤ y % 19 ∧ y % 19 < 19 := by omega
    generalize y % 19 = a at *
    have e3 : (32 - (z + h)) % 7 = 6 - (z + h + 2) % 7 := by omega
    rw [e3]
    rcases hi with ⟨h2, rfl⟩ | ⟨rfl, h2, rfl⟩ | ⟨rfl, h2, rfl⟩ | ⟨rfl, rfl⟩
    · have : (a + 11 * i + 22 * (6 - (z + i + 2) % 7)) / 451 = 0 := by omega
      rw [this]; omega
    · have : (a + 11 * 28 + 22 * (6 - (z + 28 + 2) % 7)) / 451 = 0 := by omega
      rw [this]; omega
    · by_cases h0 : (z + 28 + 2) % 7 = 0
      · have : (a + 11 * 28 + 22 * (6 - (z + 28 + 2) % 7)) / 451 = 1 := by omega
        rw [this]; omega
      · have : (a + 11 * 28 + 22 * (6 - (z + 28 + 2) % 7)) / 451 = 0 := by omega
        rw [this]; omega
    · by_cases h0 : (z + 29 + 2) % 7 = 0
      · have : (a + 11 * 29 + 22 * (6 - (z + 29 + 2) % 7)) / 451 = 1 := by omega
        rw [this]; omega
      · have : (a + 11 * 29 + 22 * (6 - (z + 29 + 2) % 7)) / 451 = 0 := by omega
        rw [this]; omega
  · omega
  · omega
theorem easterDay_orthodox_eq (y : Int) (h0 : 1583 ≤ y) (h1 : y ≤ 4099) :
    easterDay true y = dayNum y (julianEaster y).1 (julianEaster y).2 + (y / 100 - y / 100 / 4 - 2) := by
  rw [easterDay_orthodox y h0 h1]
  unfold julianEaster
  simp only
  rw [paschal_date _ _ (by omega) (by omega)]
  have hd : 0 ≤ (19 * (y % 19) + 15) % 30 ∧ (19 * (y % 19) + 15) % 30 < 30 := by omega
  generalize (19 * (y % 19) + 15) % 30 = d at *
  have e0 : (y / 100 - 16) / 4 = y / 100 / 4 - 4 := by omega
  have e1 : (2 * (y % 4) + 4 * (y % 7) - d + 34) % 7 = (34 - 5 * (y / 4) - y % 4 - d) % 7 := by omega
  have e2 : (y + y / 4 + d) % 7 = (5 * (y / 4) + y % 4 + d) % 7 := by congr 1; omega
  rw [e0, e1, e2]
  omega

theorem orthodox_sunday (y : Int) (h0 : 1583 ≤ y) (h1 : y ≤ 4099) : weekday (easterDay true y) = 6 := by
  rw [easterDay_orthodox y h0 h1]
  exact orthodox_weekday y _

theorem easter_bounds (y : Int) : dayNum y 3 22 ≤ easterDay false y ∧ easterDay false y ≤ dayNum y 4 25 := by
  have h := western_i ((y / 100 - y / 100 / 4 - (8 * (y / 100) + 13) / 25 + 19 * (y % 19) + 15) % 30) (y % 19) (by omega) (by omega) (by omega) (by omega)
  have hp : -6 ≤ westernP y ∧ westernP y ≤ 28 := by
    simp only [westernP]
    omega
  rw [easterDay_western]
  have e1 := paschal_date y 0 (by omega) (by omega)
  have e2 := paschal_date y 34 (by omega) (by omega)
  simp only [show (0 + 114 : Int) / 31 = 3 by decide, show (0 + 114 : Int) % 31 + 1 = 22 by decide, show (34 + 114 : Int) / 31 = 4 by decide, show (34 + 114 : Int) % 31 + 1 = 25 by decide] at e1 e2
  omega

end TB
