import Verif.Lemmas.When
import Verif.Lemmas.Easter
/-! Marks in calendar years. -/
namespace TB

/-- The frame of calendar years from `y1` on. -/
def years (y1 : Int) (n : Nat) : Frame := ⟨(Denom.A none).freq, y1 - 1970, n⟩

theorem years_start (y1 : Int) (n : Nat) (i : Int) : (years y1 n).unitStart i = date (y1 + i) 1 1 := by
  unfold years Frame.unitStart Frame.ord date dayNum
  have e1 : (Denom.A none).freq.base = .A 11 := rfl
  have e2 : (Denom.A none).freq.mult = 1 := rfl
  rw [e1, e2]
  simp only [Base.startOf]
  have e3 : ((((11 : Fin 12) : Nat) : Int) + 1) % 12 = 0 := rfl
  rw [e3, show 12 * (y1 - 1970 + ((1 : Nat) : Int) * i) + 0 = 12 * (y1 + i - 1970) + (1 - 1) by omega]
  congr 1
  omega

theorem years_end (y1 : Int) (n : Nat) (i : Int) : (years y1 n).unitEnd i = date (y1 + i + 1) 1 1 - 1 := by
  rw [Frame.unitEnd_eq, years_start]; congr 2; omega

/-- The indices of a frame of years are years. -/
theorem exists_year {y1 : Int} {n : Nat} {P : Int → Prop} : (∃ i : Nat, i < n ∧ P (y1 + i)) ↔ ∃ y, y1 ≤ y ∧ y < y1 + n ∧ P y := by
  constructor
  · rintro ⟨i, hi, h⟩; exact ⟨y1 + i, by omega, by omega, h⟩
  · rintro ⟨y, h1, h2, h⟩
    refine ⟨(y - y1).toNat, by omega, ?_⟩
    rw [show y1 + (((y - y1).toNat : Nat) : Int) = y by omega]; exact h

/-- Easter is within its year. -/
theorem easter_in_year {y : Int} {orthodox : Bool} (hor : orthodox = true → 1583 ≤ y ∧ y ≤ 4099) :
    date y 1 1 ≤ easterDay orthodox y * nsDay ∧ easterDay orthodox y * nsDay ≤ date (y + 1) 1 1 - 1 := by
  have hb : dayNum y 1 1 ≤ easterDay orthodox y ∧ easterDay orthodox y < dayNum (y + 1) 1 1 := by
    have m1 : dayNum y 1 1 + 31 ≤ dayNum y 3 1 := by
      unfold dayNum
      have h1 := monthStart_step (12 * (y - 1970) + (1 - 1))
      have h2 := monthStart_step (12 * (y - 1970) + (1 - 1) + 1)
      rw [show 12 * (y - 1970) + (1 - 1) + 1 + 1 = 12 * (y - 1970) + (3 - 1) by omega] at h2
      omega
    have m2 : dayNum y 3 1 + 10 * 28 ≤ dayNum (y + 1) 1 1 := by
      unfold dayNum
      have key : ∀ (k : Int) (m : Nat), monthStart k + m * 28 ≤ monthStart (k + m) := by
        intro k m
        induction m with
        | zero => simp
        | succ m ih =>
          have := monthStart_step (k + m)
          rw [show k + ((m + 1 : Nat) : Int) = k + m + 1 by omega]; omega
      have := key (12 * (y - 1970) + (3 - 1)) 10
      rw [show 12 * (y - 1970) + (3 - 1) + ((10 : Nat) : Int) = 12 * (y + 1 - 1970) + (1 - 1) by omega] at this
      omega
    have m3 : dayNum y 3 28 = dayNum y 3 1 + 27 := by unfold dayNum; omega
    cases orthodox with
    | false =>
      have := easter_bounds y
      have m4 : dayNum y 3 22 = dayNum y 3 1 + 21 := by unfold dayNum; omega
      have m5 : dayNum y 4 25 ≤ dayNum y 3 1 + 55 := by
        unfold dayNum
        have h1 := monthStart_step (12 * (y - 1970) + (3 - 1))
        rw [show 12 * (y - 1970) + (3 - 1) + 1 = 12 * (y - 1970) + (4 - 1) by omega] at h1
        omega
      omega
    | true =>
      have hr := hor rfl
      rw [easterDay_orthodox y (by omega) (by omega)]
      omega
  unfold date
  constructor
  · exact Int.mul_le_mul_of_nonneg_right hb.1 (by decide)
  · have hmul := Int.mul_le_mul_of_nonneg_right (show easterDay orthodox y + 1 ≤ dayNum (y + 1) 1 1 by omega) (show 0 ≤ nsDay by decide)
    rw [Int.add_mul, Int.one_mul] at hmul
    have := nsDay_pos
    omega

/-- The marks of `from_easter` for calendar years, with any offset. -/
theorem fromEaster_years (orthodox : Bool) (shift : Option Int) (kwargs : Option Offset) (y1 : Int) (n : Nat) (nb : Freq)
    (hor : orthodox = true → 1583 ≤ y1 ∧ y1 + n ≤ 4100) :
    ∃ ts, fromEaster orthodox shift kwargs (years y1 n) nb = .ok ts ∧
      ∀ t, t ∈ ts ↔ ∃ y, y1 ≤ y ∧ y < y1 + n ∧ t = snap nb (addOffset (easterDay orthodox y * nsDay) (withShift kwargs shift)) ∧
        (if testTime ≤ addOffset testTime (withShift kwargs shift) then t < date (y + 1) 1 1 else date y 1 1 ≤ t) := by
  have hyr : ∀ i : Int, periodYear (years y1 n).freq ((years y1 n).ord i) = y1 + i := by
    intro i
    have h1 := years_end y1 n i
    have h2 : (years y1 n).freq.base.startOf ((years y1 n).ord i + 1) - 1 = (years y1 n).unitEnd i := by
      rw [Frame.unitEnd_eq]; unfold Frame.unitStart Frame.ord
      have e2 : (years y1 n).freq.mult = 1 := rfl
      rw [e2]; congr 2; omega
    unfold periodYear
    rw [h2, h1]
    have h3 : dayOf (date (y1 + i + 1) 1 1 - 1) = dayNum (y1 + i + 1) 1 1 - 1 := by
      unfold dayOf date; simp only [nsDay]; omega
    rw [h3]
    have hys : ∀ y, dayNum y 1 1 = yearStart y := by
      intro y
      unfold dayNum monthStart
      rw [show (12 * (y - 1970) + (1 - 1)) / 12 = y - 1970 by omega, show (12 * (y - 1970) + (1 - 1)) % 12 = 0 by omega, daysBefore_zero,
        show 1970 + (y - 1970) = y by omega]
      omega
    rw [hys]
    have h4 := yearOf_spec (yearStart (y1 + i + 1) - 1)
    have h5 := yearStart_lt_succ (y1 + i)
    generalize yearOf (yearStart (y1 + i + 1) - 1) = z at h4
    have mono : ∀ {a b : Int}, a ≤ b → yearStart a ≤ yearStart b := by
      intro a b hab; unfold yearStart; omega
    apply Classical.byContradiction
    intro hne
    rcases Int.lt_or_gt_of_ne hne with h | h
    · have := mono (show z + 1 ≤ y1 + i by omega); omega
    · have := mono (show y1 + i + 1 ≤ z by omega); omega
  have hdates : (((years y1 n).ords.map (fun o => easterDay orthodox (periodYear (years y1 n).freq o) * nsDay)).zip
      ((years y1 n).startTimes.zip (years y1 n).endTimes)).filter (fun x => decide (x.2.1 ≤ x.1) && decide (x.1 ≤ x.2.2)) =
      (List.range n).map (fun (i : Nat) => (easterDay orthodox (y1 + i) * nsDay, date (y1 + i) 1 1, date (y1 + i + 1) 1 1 - 1)) := by
    have hz : ∀ (l : List Nat) (a b c : Nat → Int), (l.map a).zip ((l.map b).zip (l.map c)) = l.map (fun i => (a i, b i, c i)) := by
      intro l a b c
      induction l with
      | nil => rfl
      | cons x l ih => simp only [List.map_cons, List.zip_cons_cons, ih]
    unfold Frame.ords Frame.startTimes Frame.endTimes
    rw [List.map_map, hz]
    simp only [Function.comp_def, hyr, years_start, years_end]
    rw [show (years y1 n).n = n from rfl, List.filter_eq_self]
    intro x hx
    rw [List.mem_map] at hx
    obtain ⟨i, hi, rfl⟩ := hx
    rw [List.mem_range] at hi
    have := easter_in_year (y := y1 + i) (orthodox := orthodox) (fun h => by have := hor h; omega)
    simp only [Bool.and_eq_true, decide_eq_true_eq]
    exact this
  unfold fromEaster
  simp only [hdates, List.map_map, Function.comp_def]
  have hst : (years y1 n).startTimes = (List.range n).map (fun (i : Nat) => date (y1 + i) 1 1) := by
    unfold Frame.startTimes; simp only [years_start]; rfl
  have het : (years y1 n).endTimes = (List.range n).map (fun (i : Nat) => date (y1 + i + 1) 1 1 - 1) := by
    unfold Frame.endTimes; simp only [years_end]; rfl
  rw [hst, het]
  by_cases hf : testTime ≤ addOffset testTime (withShift kwargs shift)
  · simp only [if_pos hf]
    rw [maskBy_map]
    refine ⟨_, rfl, ?_⟩
    intro t
    rw [← exists_year (P := fun y => t = snap nb (addOffset (easterDay orthodox y * nsDay) (withShift kwargs shift)) ∧ t < date (y + 1) 1 1), List.mem_map]
    constructor
    · rintro ⟨i, hi, rfl⟩
      simp only [List.mem_filter, List.mem_range, decide_eq_true_eq] at hi
      exact ⟨i, hi.1, rfl, by omega⟩
    · rintro ⟨i, hi, rfl, h⟩
      exact ⟨i, by simp only [List.mem_filter, List.mem_range, decide_eq_true_eq]; exact ⟨hi, by omega⟩, rfl⟩
  · simp only [if_neg hf]
    rw [maskBy_map]
    refine ⟨_, rfl, ?_⟩
    intro t
    rw [← exists_year (P := fun y => t = snap nb (addOffset (easterDay orthodox y * nsDay) (withShift kwargs shift)) ∧ date y 1 1 ≤ t), List.mem_map]
    constructor
    · rintro ⟨i, hi, rfl⟩
      simp only [List.mem_filter, List.mem_range, decide_eq_true_eq] at hi
      exact ⟨i, hi.1, rfl, by omega⟩
    · rintro ⟨i, hi, rfl, h⟩
      exact ⟨i, by simp only [List.mem_filter, List.mem_range, decide_eq_true_eq]; exact ⟨hi, by omega⟩, rfl⟩

end TB
