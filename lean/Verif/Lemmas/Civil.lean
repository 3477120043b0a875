import Verif.Spec.Civil
import Verif.Lemmas.Freq
/-! # Lemmas about the calendar -/
namespace TB

theorem isLeap_eq (y : Int) : isLeap y = decide (LeapYear y) := by
  rw [Bool.eq_iff_iff, isLeap_iff, decide_eq_true_eq]
  unfold LeapYear
  omega

theorem monthStart_next (k : Int) : monthStart (k + 1) = monthStart k + monthDays (1970 + k / 12) (k % 12 + 1) := by
  unfold monthStart
  have hl := isLeap_eq (1970 + k / 12)
  have hm : k % 12 = 0 ∨ k % 12 = 1 ∨ k % 12 = 2 ∨ k % 12 = 3 ∨ k % 12 = 4 ∨ k % 12 = 5 ∨ k % 12 = 6 ∨ k % 12 = 7 ∨ k % 12 = 8 ∨
      k % 12 = 9 ∨ k % 12 = 10 ∨ k % 12 = 11 := by omega
  by_cases h : k % 12 = 11
  · have e1 : (k + 1) / 12 = k / 12 + 1 := by omega
    have e2 : (k + 1) % 12 = 0 := by omega
    have hs := yearStart_succ (1970 + k / 12)
    rw [e1, e2, daysBefore_zero, h, show 1970 + (k / 12 + 1) = 1970 + k / 12 + 1 by omega, hs]
    have : daysBefore (1970 + k / 12) 11 = (if isLeap (1970 + k / 12) then 335 else 334) := by
      cases hl : isLeap (1970 + k / 12) <;> simp [daysBefore, cumDays, hl]
    rw [this]
    simp [monthDays]
    split <;> omega
  · have e1 : (k + 1) / 12 = k / 12 := by omega
    have e2 : (k + 1) % 12 = k % 12 + 1 := by omega
    rw [e1, e2]
    generalize 1970 + k / 12 = y at *
    generalize k % 12 = m at *
    rcases hm with h | h | h | h | h | h | h | h | h | h | h | h <;> subst h <;>
      by_cases hy : LeapYear y <;> simp [hy] at hl <;> simp [daysBefore, cumDays, monthDays, hl, hy] at * <;> omega

theorem yearOf_monthOf (d : Int) : yearOf d = 1970 + monthOf d / 12 := by
  obtain ⟨h1, h2⟩ := yearOf_spec d
  have hs := yearStart_succ (yearOf d)
  have h12 := daysBefore_twelve (yearOf d)
  obtain ⟨m0, m1, _, _⟩ := monthInYear_spec (yearOf d) (d - yearStart (yearOf d)) (by omega) (by omega)
  unfold monthOf
  omega

/-- The date of a day in terms of its month. -/
theorem ofDay_eq {d k : Int} (h1 : monthStart k ≤ d) (h2 : d < monthStart (k + 1)) :
    Civil.ofDay d = ⟨1970 + k / 12, k % 12 + 1, d - monthStart k + 1⟩ := by
  unfold Civil.ofDay dayOfMonth
  rw [yearOf_monthOf, monthOf_unique h1 h2]

theorem ofDay_next (d : Int) : Civil.ofDay (d + 1) = (Civil.ofDay d).tomorrow := by
  obtain ⟨h1, h2⟩ := monthOf_spec d
  generalize monthOf d = k at *
  have hn := monthStart_next k
  rw [ofDay_eq h1 h2]
  unfold Civil.tomorrow
  simp only
  by_cases hd : d + 1 < monthStart (k + 1)
  · rw [if_pos (by omega), ofDay_eq (k := k) (by omega) hd]
    congr 1; omega
  · rw [if_neg (by omega), ofDay_eq (k := k + 1) (by omega) (by have := monthStart_lt_succ (k + 1); omega)]
    split
    · rw [Civil.mk.injEq]; omega
    · rw [Civil.mk.injEq]; omega

theorem ofDay_valid (d : Int) : (Civil.ofDay d).Valid := by
  obtain ⟨h1, h2⟩ := monthOf_spec d
  have hn := monthStart_next (monthOf d)
  rw [ofDay_eq h1 h2]
  generalize monthOf d = k at *
  refine ⟨?_, ?_, ?_, ?_⟩ <;> simp only <;> omega

theorem dayNum_ofDay (d : Int) : dayNum (Civil.ofDay d).year (Civil.ofDay d).month (Civil.ofDay d).day = d := by
  obtain ⟨h1, h2⟩ := monthOf_spec d
  rw [ofDay_eq h1 h2]
  unfold dayNum
  simp only
  generalize monthOf d = k at *
  rw [show 12 * (1970 + k / 12 - 1970) + (k % 12 + 1 - 1) = k by omega]
  omega

theorem ofDay_dayNum {c : Civil} (h : c.Valid) : Civil.ofDay (dayNum c.year c.month c.day) = c := by
  obtain ⟨y, m, d⟩ := c
  obtain ⟨h1, h2, h3, h4⟩ := h
  simp only at h1 h2 h3 h4
  have hn := monthStart_next (12 * (y - 1970) + (m - 1))
  have e1 : 1970 + (12 * (y - 1970) + (m - 1)) / 12 = y := by omega
  have e2 : (12 * (y - 1970) + (m - 1)) % 12 + 1 = m := by omega
  rw [e1, e2] at hn
  unfold dayNum
  simp only
  rw [ofDay_eq (k := 12 * (y - 1970) + (m - 1)) (by omega) (by omega), e1, e2]
  congr 1; omega

theorem ofDay_first (d : Int) : (Civil.ofDay d).day = 1 ↔ ∃ k, d = monthStart k := by
  constructor
  · intro h
    refine ⟨monthOf d, ?_⟩
    simp only [Civil.ofDay, dayOfMonth] at h
    omega
  · rintro ⟨k, rfl⟩
    rw [ofDay_eq (k := k) (by omega) (monthStart_lt_succ k)]
    simp

theorem ofDay_monthStart (k : Int) : Civil.ofDay (monthStart k) = ⟨1970 + k / 12, k % 12 + 1, 1⟩ := by
  rw [ofDay_eq (k := k) (by omega) (monthStart_lt_succ k)]
  congr 1; omega

theorem ofDay_before (k : Int) : (Civil.ofDay (monthStart k - 1)).month = (k - 1) % 12 + 1 := by
  have := monthStart_lt_succ (k - 1)
  rw [show k - 1 + 1 = k by omega] at this
  rw [ofDay_eq (k := k - 1) (by omega) (by rw [show k - 1 + 1 = k by omega]; omega)]

theorem atMidnight_month {x : Time} {p : Int → Prop} : AtMidnight x (fun d => (Civil.ofDay d).day = 1 ∧ p d) ↔
    ∃ k, x = monthStart k * nsDay ∧ p (monthStart k) := by
  constructor
  · rintro ⟨d, h1, h2, h3⟩
    obtain ⟨k, rfl⟩ := (ofDay_first d).1 h2
    exact ⟨k, h1, h3⟩
  · rintro ⟨k, h1, h2⟩
    exact ⟨_, h1, (ofDay_first _).2 ⟨k, rfl⟩, h2⟩

/-- Calendar periods begin where the model says. -/
theorem begins_iff (d : Denom) (x : Time) : d.Begins x ↔ ∃ o, x = d.base.startOf o := by
  have year : ∀ e : Fin 12, AtMidnight x (fun d => (Civil.ofDay d).day = 1 ∧ (Civil.ofDay (d - 1)).month = ((e : Nat) : Int) + 1) ↔
      ∃ o, x = (Base.A e).startOf o := by
    intro e
    rw [atMidnight_month]
    simp only [ofDay_before, Base.startOf]
    constructor
    · rintro ⟨k, rfl, h⟩
      refine ⟨k / 12, ?_⟩
      rw [show 12 * (k / 12) + (((e : Nat) : Int) + 1) % 12 = k by omega]
    · rintro ⟨o, rfl⟩
      exact ⟨_, rfl, by omega⟩
  have plain : AtMidnight x (fun d => (Civil.ofDay d).day = 1 ∧ (Civil.ofDay d).month = 1) ↔ ∃ o, x = (Base.A 11).startOf o := by
    rw [atMidnight_month]
    simp only [ofDay_monthStart, Base.startOf]
    constructor
    · rintro ⟨k, rfl, h⟩
      refine ⟨k / 12, ?_⟩
      have : (((11 : Fin 12) : Nat) : Int) = 11 := rfl
      rw [this, show 12 * (k / 12) + (11 + 1) % 12 = k by omega]
    · rintro ⟨o, rfl⟩
      have : (((11 : Fin 12) : Nat) : Int) = 11 := rfl
      exact ⟨_, rfl, by rw [this]; omega⟩
  cases d with
  | S => exact Iff.rfl
  | T => exact Iff.rfl
  | min => exact Iff.rfl
  | H => exact Iff.rfl
  | D => simp only [Denom.Begins, AtMidnight, and_true, Denom.base, Base.startOf]
  | W s =>
    cases s with
    | none =>
      simp only [Denom.Begins, AtMidnight, Denom.base, Base.startOf, weekday, Option.getD_none]
      have : (((6 : Fin 7) : Nat) : Int) = 6 := rfl
      rw [this]
      constructor
      · rintro ⟨d, rfl, h⟩; exact ⟨(d - 4) / 7, by rw [show 7 * ((d - 4) / 7) + 6 - 2 = d by omega]⟩
      · rintro ⟨o, rfl⟩; exact ⟨_, rfl, by omega⟩
    | some e =>
      simp only [Denom.Begins, AtMidnight, Denom.base, Base.startOf, weekday, Option.getD_some]
      constructor
      · rintro ⟨d, rfl, h⟩
        exact ⟨(d - ((e : Nat) : Int) + 2) / 7, by rw [show 7 * ((d - ((e : Nat) : Int) + 2) / 7) + ((e : Nat) : Int) - 2 = d by omega]⟩
      · rintro ⟨o, rfl⟩; exact ⟨_, rfl, by omega⟩
  | M =>
    show AtMidnight x (fun d => (Civil.ofDay d).day = 1) ↔ ∃ o, x = monthStart o * nsDay
    have := @atMidnight_month x (fun _ => True)
    simp only [and_true] at this
    exact this
  | Q s =>
    cases s with
    | none =>
      simp only [Denom.Begins, Denom.base, Base.startOf, Option.getD_none]
      rw [atMidnight_month]
      simp only [ofDay_monthStart, List.mem_cons, List.not_mem_nil, or_false]
      have : (((11 : Fin 12) : Nat) : Int) = 11 := rfl
      rw [this]
      constructor
      · rintro ⟨k, rfl, h⟩; exact ⟨k / 3, by rw [show 3 * (k / 3) + (11 + 1) % 3 = k by omega]⟩
      · rintro ⟨o, rfl⟩; exact ⟨_, rfl, by omega⟩
    | some e =>
      simp only [Denom.Begins, Denom.base, Base.startOf, Option.getD_some]
      rw [atMidnight_month]
      simp only [ofDay_before]
      constructor
      · rintro ⟨k, rfl, h⟩
        exact ⟨(k - (((e : Nat) : Int) + 1) % 3) / 3, by
          rw [show 3 * ((k - (((e : Nat) : Int) + 1) % 3) / 3) + (((e : Nat) : Int) + 1) % 3 = k by omega]⟩
      · rintro ⟨o, rfl⟩; exact ⟨_, rfl, by omega⟩
  | A s => cases s with
    | none => exact plain
    | some e => exact year e
  | Y s => cases s with
    | none => exact plain
    | some e => exact year e

end TB
