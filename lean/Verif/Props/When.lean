import Verif.Lemmas.Years
import Verif.Examples.Boards
/-! Properties C49, C62: marks at the n-th weekday of a month and marks related to Easter. -/
namespace TB
open TB.Ex

/-- **C49**, for all periods which consist of whole months (multiplied or not): each period has exactly one mark if the n-th
weekday of the month exists and the month is within the period, and none otherwise. -/
theorem C49_nth_weekday (month week wday : Int) (shift : Option Int) (pi : Frame) (nb : Freq) (h : NthArgs month week wday)
    (hm : pi.freq.base.Monthly) :
    ∃ ts, nthWeekdayOfMonth month week wday shift pi nb = .ok ts ∧ ts.Pairwise (· < ·) ∧
      ∀ t, t ∈ ts ↔ ∃ i : Nat, i < pi.n ∧ ∃ k d, k = monthOf (dayOf (pi.unitStart i)) + (month - 1) ∧
        monthStart k * nsDay ≤ pi.unitEnd i ∧ IsNthWeekday k (wday - 1) week d ∧ t = (d + shift.getD 0) * nsDay := by
  obtain ⟨idx, day, h1, h2, h3⟩ := nthWeekdayOfMonth_eq (shift := shift) (nb := nb) h hm
  refine ⟨_, h2, ?_, ?_⟩
  · rw [List.pairwise_map]
    refine List.Pairwise.imp_of_mem ?_ h1
    intro i j hi hj hij
    have a1 := ((h3 i (day i)).1 ⟨hi, rfl⟩).2.2
    have a2 := ((h3 j (day j)).1 ⟨hj, rfl⟩).2.2
    have b1 := a1.2.1
    have b2 := a2.1
    have hlt : monthOf (dayOf (pi.unitStart i)) < monthOf (dayOf (pi.unitStart j)) := by
      obtain ⟨c, P, hP, hu⟩ := pi.monthly hm
      rw [hu, hu, dayOf_mul, dayOf_mul, monthOf_monthStart, monthOf_monthStart]
      have := Int.mul_lt_mul_of_pos_left (show (i : Int) < j by omega) (show 0 < P by omega)
      omega
    have := monthStart_le (show monthOf (dayOf (pi.unitStart i)) + (month - 1) + 1 ≤ monthOf (dayOf (pi.unitStart j)) + (month - 1) by omega)
    exact Int.mul_lt_mul_of_pos_right (by omega) nsDay_pos
  · intro t
    rw [List.mem_map]
    constructor
    · rintro ⟨i, hi, rfl⟩
      obtain ⟨h4, h5, h6⟩ := (h3 i (day i)).1 ⟨hi, rfl⟩
      exact ⟨i, h4, _, _, rfl, h5, h6, rfl⟩
    · rintro ⟨i, hi, k, d, rfl, h5, h6, rfl⟩
      obtain ⟨h7, rfl⟩ := (h3 i d).2 ⟨hi, h5, h6⟩
      exact ⟨i, h7, rfl⟩

/-- **C49.** With `each='A'`, for any range of years. -/
theorem C49_years (month week wday : Int) (shift : Option Int) (y1 : Int) (n : Nat) (nb : Freq) (h : NthArgs month week wday) :
    ∃ ts, nthWeekdayOfMonth month week wday shift (years y1 n) nb = .ok ts ∧ ts.Pairwise (· < ·) ∧
      ∀ t, t ∈ ts ↔ ∃ y, y1 ≤ y ∧ y < y1 + n ∧ ∃ d, IsNthWeekday (12 * (y - 1970) + (month - 1)) (wday - 1) week d ∧
        t = (d + shift.getD 0) * nsDay := by
  obtain ⟨ts, h1, h2, h3⟩ := C49_nth_weekday month week wday shift (years y1 n) nb h (show (Base.A 11).Monthly by decide)
  refine ⟨ts, h1, h2, ?_⟩
  intro t
  rw [h3, ← exists_year (P := fun y => ∃ d, IsNthWeekday (12 * (y - 1970) + (month - 1)) (wday - 1) week d ∧ t = (d + shift.getD 0) * nsDay)]
  have hk : ∀ i : Int, monthOf (dayOf ((years y1 n).unitStart i)) + (month - 1) = 12 * (y1 + i - 1970) + (month - 1) := by
    intro i
    rw [years_start]
    unfold date dayNum
    rw [dayOf_mul, show ∀ x : Int, x + (1 - 1) = x by intro x; omega, show (1 : Int) - 1 = 0 by omega, monthOf_monthStart]
    omega
  constructor
  · rintro ⟨i, hi, k, d, rfl, _, h6, h7⟩
    exact ⟨i, hi, d, by rw [← hk]; exact h6, h7⟩
  · rintro ⟨i, hi, d, h6, h7⟩
    refine ⟨i, hi, _, d, rfl, ?_, by rw [hk]; exact h6, h7⟩
    rw [hk, years_end]
    unfold date dayNum
    have := monthStart_lt (show 12 * (y1 + i - 1970) + (month - 1) < 12 * (y1 + i + 1 - 1970) + (1 - 1) by have := h.1; omega)
    have hmul := Int.mul_le_mul_of_nonneg_right (show monthStart (12 * (y1 + i - 1970) + (month - 1)) + 1 ≤ monthStart (12 * (y1 + i + 1 - 1970) + (1 - 1)) + (1 - 1) by omega)
      (show 0 ≤ nsDay by decide)
    have := nsDay_pos
    rw [Int.add_mul, Int.one_mul] at hmul
    omega

/-- **C49.** Which arguments are refused. -/
theorem C49_errors (month week wday : Int) (shift : Option Int) (pi : Frame) (nb : Freq)
    (h : month < 1 ∨ 12 < month ∨ wday < 1 ∨ 7 < wday ∨ week < -5 ∨ week = 0 ∨ 5 < week) :
    nthWeekdayOfMonth month week wday shift pi nb = .error .assertionError := by
  apply nthWeekdayOfMonth_bad
  unfold NthArgs
  omega

/-- US Memorial day (the last Monday of May), Thanksgiving Friday, the fifth Sunday of February (2032 only). Weeks are not
acceptable as `each`. -/
example : NthArgs 5 (-1) 1 := by unfold NthArgs; decide

example : nthWeekdayOfMonth 5 (-1) 1 none (years 2017 3) fD = .ok [date 2017 5 29, date 2018 5 28, date 2019 5 27] ∧
    nthWeekdayOfMonth 11 4 4 (some 1) (years 2017 2) fD = .ok [date 2017 11 24, date 2018 11 23] ∧
    nthWeekdayOfMonth 2 5 7 none (years 2030 5) fD = .ok [date 2032 2 29] ∧
    nthWeekdayOfMonth 1 1 1 none ⟨fW, 0, 10⟩ fD = .error .valueError := by decide +kernel

/-- **C62**, with a given shift, for base units of a day or shorter.  Missing from the full statement: without a shift and other
keyword arguments the mark is not the day of Easter (`C62_negation`). -/
theorem C62_easter_marks_partial (orthodox : Bool) (shift : Int) (y1 : Int) (n : Nat) (nb : Freq)
    (hor : orthodox = true → 1583 ≤ y1 ∧ y1 + n ≤ 4100) (hnb : nb.base = .S ∨ nb.base = .T ∨ nb.base = .H ∨ nb.base = .D) :
    ∃ ts, fromEaster orthodox (some shift) none (years y1 n) nb = .ok ts ∧
      ∀ t, t ∈ ts ↔ ∃ y, y1 ≤ y ∧ y < y1 + n ∧ t = (easterDay orthodox y + shift) * nsDay ∧ date y 1 1 ≤ t ∧ t < date (y + 1) 1 1 := by
  obtain ⟨ts, h1, h2⟩ := fromEaster_years orthodox (some shift) none y1 n nb hor
  refine ⟨ts, h1, ?_⟩
  have hsn : ∀ d : Int, snap nb (d * nsDay) = d * nsDay := by
    intro d
    unfold snap
    rcases hnb with h | h | h | h <;> rw [h] <;> simp only [Base.startOf, Base.ordOf, nsSec, nsMin, nsHour, nsDay] <;> omega
  have hadd : ∀ u, addOffset u (withShift none (some shift)) = u + shift * nsDay := by
    intro u
    have := addOffset_days u shift
    simpa [withShift] using this
  intro t
  rw [h2]
  simp only [hadd, ← Int.add_mul, hsn]
  have hpos := nsDay_pos
  constructor
  · rintro ⟨y, a1, a2, rfl, a3⟩
    refine ⟨y, a1, a2, rfl, ?_⟩
    have he := easter_in_year (y := y) (orthodox := orthodox) (fun h => by have := hor h; omega)
    rw [Int.add_mul] at a3 ⊢
    split at a3 <;> omega
  · rintro ⟨y, a1, a2, rfl, a3, a4⟩
    refine ⟨y, a1, a2, rfl, ?_⟩
    split <;> assumption

/-- **C62**, for arbitrary keyword arguments: one mark for each year, unless it is beyond the end of the year (or, for an offset
back in time, before the start of the year). -/
theorem C62_easter_offset (orthodox : Bool) (o : Offset) (y1 : Int) (n : Nat) (nb : Freq)
    (hor : orthodox = true → 1583 ≤ y1 ∧ y1 + n ≤ 4100) :
    ∃ ts, fromEaster orthodox none (some o) (years y1 n) nb = .ok ts ∧
      ∀ t, t ∈ ts ↔ ∃ y, y1 ≤ y ∧ y < y1 + n ∧ t = snap nb (addOffset (easterDay orthodox y * nsDay) (some o)) ∧
        ((testTime ≤ addOffset testTime (some o) ∧ t < date (y + 1) 1 1) ∨ (addOffset testTime (some o) < testTime ∧ date y 1 1 ≤ t)) := by
  obtain ⟨ts, h1, h2⟩ := fromEaster_years orthodox none (some o) y1 n nb hor
  refine ⟨ts, h1, ?_⟩
  intro t
  rw [h2, show withShift (some o) none = some o from rfl]
  constructor
  · rintro ⟨y, a1, a2, a3, a4⟩
    refine ⟨y, a1, a2, a3, ?_⟩
    split at a4
    · rename_i h; exact .inl ⟨h, a4⟩
    · rename_i h; exact .inr ⟨by omega, a4⟩
  · rintro ⟨y, a1, a2, a3, a4⟩
    refine ⟨y, a1, a2, a3, ?_⟩
    rcases a4 with ⟨h, a4⟩ | ⟨h, a4⟩
    · rw [if_pos h]; exact a4
    · rw [if_neg (by omega)]; exact a4

/-- **C62**, both: a shift is another way to give the number of days, and takes precedence over `days`. -/
theorem C62_shift_is_days (orthodox : Bool) (shift : Int) (o : Offset) (pi : Frame) (nb : Freq) :
    fromEaster orthodox (some shift) (some o) pi nb = fromEaster orthodox none (some { o with days := shift }) pi nb ∧
    fromEaster orthodox (some shift) none pi nb = fromEaster orthodox none (some { days := shift }) pi nb := ⟨rfl, rfl⟩

example : fromEaster false (some 1) (some { days := 5, hours := 9 }) (years 2017 2) fH =
    .ok [date 2017 4 17 + 9 * nsHour, date 2018 4 2 + 9 * nsHour] := by decide +kernel

/-- Easter Monday and Good Friday; a shift into the next year; noon of Easter eve. -/
example : fromEaster false (some 1) none (years 2017 2) fD = .ok [date 2017 4 17, date 2018 4 2] ∧
    fromEaster false (some (-2)) none (years 2017 2) fD = .ok [date 2017 4 14, date 2018 3 30] ∧
    fromEaster true (some 0) none (years 2017 2) fD = .ok [date 2017 4 16, date 2018 4 8] ∧
    fromEaster false (some 270) none (years 2017 2) fD = .ok [date 2018 12 27] ∧
    fromEaster false none (some { hours := -12 }) (years 2017 1) fH = .ok [date 2017 4 15 + 12 * nsHour] := by decide +kernel

/-- The full statement of C62 fails: without keyword arguments the mark is the day after Easter (which was on 16 April 2017). -/
theorem C62_negation : ∃ (y1 : Int) (n : Nat), easterDay false y1 = dayNum y1 4 16 ∧
    fromEaster false none none (years y1 n) fD = .ok [date y1 4 17] := by
  refine ⟨2017, 1, ?_⟩
  decide +kernel

end TB
