import Verif.Lemmas.TriedOut
import Verif.Props.MarkerAt
import Verif.Props.When
import Verif.Lemmas.Regular
/-! Properties C45, C62: which offsets lead back in time. -/
namespace TB
open TB.Ex

/-- **C45.** `from_start_of_each`, for any offset and any periods: an offset leads back in time if it leads back from 1 January 2004, and then there are no
points at all; otherwise there is a point for each period, unless it is beyond the end of the period. -/
theorem C45_tried_out (o : Offset) (pi : Frame) (nb : Freq) :
    ∃ ts, fromStartOfEach (some o) pi nb = .ok ts ∧ ∀ t, t ∈ ts ↔ date 2004 1 1 ≤ addOffset (date 2004 1 1) (some o) ∧
      ∃ i : Nat, i < pi.n ∧ t = snap nb (addOffset (pi.unitStart i) (some o)) ∧ t ≤ pi.unitEnd i := by
  by_cases h : date 2004 1 1 ≤ addOffset (date 2004 1 1) (some o)
  · refine ⟨_, fromStartOfEach_eq h, fun t => ?_⟩
    rw [List.mem_map]
    constructor
    · rintro ⟨i, hi, rfl⟩
      rw [List.mem_filter, List.mem_range, decide_eq_true_eq] at hi
      exact ⟨h, i, hi.1, rfl, hi.2⟩
    · rintro ⟨_, i, hi, rfl, h2⟩
      exact ⟨i, by rw [List.mem_filter, List.mem_range, decide_eq_true_eq]; exact ⟨hi, h2⟩, rfl⟩
  · refine ⟨[], fromStartOfEach_negative (by show addOffset (date 2004 1 1) (some o) < date 2004 1 1; omega), fun t => ?_⟩
    constructor
    · intro ht; cases ht
    · intro ht; exact absurd ht.1 h

/-- **C62.** The same for `from_easter`: the offset is tried out from 1 January 2004, too. -/
theorem C62_tried_out (orthodox : Bool) (o : Offset) (y1 : Int) (n : Nat) (nb : Freq) (hor : orthodox = true → 1583 ≤ y1 ∧ y1 + n ≤ 4100) :
    ∃ ts, fromEaster orthodox none (some o) (years y1 n) nb = .ok ts ∧
      ∀ t, t ∈ ts ↔ ∃ y, y1 ≤ y ∧ y < y1 + n ∧ t = snap nb (addOffset (easterDay orthodox y * nsDay) (some o)) ∧
        ((date 2004 1 1 ≤ addOffset (date 2004 1 1) (some o) ∧ t < date (y + 1) 1 1) ∨
          (addOffset (date 2004 1 1) (some o) < date 2004 1 1 ∧ date y 1 1 ≤ t)) :=
  C62_easter_offset orthodox o y1 n nb hor

/-- **C45.** Unless months and the rest of the offset lead opposite ways, the documentation of `from_start_of_each` holds for any offset, forward or back: there
is a point for each period, unless it is before the start or beyond the end of the period. -/
theorem C45_one_way {o : Offset} (h : o.OneWay) (pi : Frame) (nb : Freq) :
    ∃ ts, fromStartOfEach (some o) pi nb = .ok ts ∧ ∀ t, t ∈ ts ↔
      ∃ i : Nat, i < pi.n ∧ pi.unitStart i ≤ addOffset (pi.unitStart i) (some o) ∧ t = snap nb (addOffset (pi.unitStart i) (some o)) ∧ t ≤ pi.unitEnd i := by
  obtain ⟨ts, e, k⟩ := C45_tried_out o pi nb
  refine ⟨ts, e, fun t => (k t).trans ⟨?_, ?_⟩⟩
  · rintro ⟨h0, i, h1, h2, h3⟩
    exact ⟨i, h1, (h.same _ _).1 h0, h2, h3⟩
  · rintro ⟨i, h1, h0, h2, h3⟩
    exact ⟨(h.same _ _).1 h0, i, h1, h2, h3⟩

/-- A day without an hour; a month back and a day back. -/
example : Offset.OneWay { days := 1, hours := -1 } ∧ Offset.OneWay { months := -1, days := -1 } ∧ ¬ Offset.OneWay { years := 1, days := -366 } := by
  unfold Offset.OneWay; decide

example : fromStartOfEach (some { days := 1, hours := -1 }) (years 2016 2) fH =
    .ok [date 2016 1 1 + 23 * nsHour, date 2017 1 1 + 23 * nsHour] := by decide +kernel

/-- **C62.** So does the documentation of `from_easter` (base units of a day or shorter): there is a point for each year, unless it is before the start or beyond
the end of the year. -/
theorem C62_one_way {o : Offset} (h : o.OneWay) {nb : Freq} (hd : nb.Daily) (orthodox : Bool) (y1 : Int) (n : Nat)
    (hor : orthodox = true → 1583 ≤ y1 ∧ y1 + n ≤ 4100) :
    ∃ ts, fromEaster orthodox none (some o) (years y1 n) nb = .ok ts ∧
      ∀ t, t ∈ ts ↔ ∃ y, y1 ≤ y ∧ y < y1 + n ∧ t = snap nb (addOffset (easterDay orthodox y * nsDay) (some o)) ∧ date y 1 1 ≤ t ∧ t < date (y + 1) 1 1 := by
  obtain ⟨ts, e, k⟩ := C62_tried_out orthodox o y1 n nb hor
  refine ⟨ts, e, fun t => (k t).trans ⟨?_, ?_⟩⟩
  · rintro ⟨y, h1, h2, rfl, hc⟩
    refine ⟨y, h1, h2, rfl, ?_⟩
    have he := easter_in_year (y := y) (orthodox := orthodox) (fun h => by have := hor h; omega)
    rcases hc with ⟨h3, h4⟩ | ⟨h3, h4⟩
    · refine ⟨?_, h4⟩
      have h5 := (h.same _ (easterDay orthodox y * nsDay)).1 h3
      have h6 : snap nb (date y 1 1) = date y 1 1 := hd.snap_midnight (dayNum y 1 1)
      rw [← h6]
      exact (Base.startOf_le_startOf _ _ _).2 (Base.ordOf_mono _ (by omega))
    · refine ⟨h4, ?_⟩
      have h5 : addOffset (easterDay orthodox y * nsDay) (some o) < easterDay orthodox y * nsDay :=
        Int.not_le.1 (fun h6 => absurd ((h.same _ (date 2004 1 1)).1 h6) (by omega))
      have h6 := snap_le_self nb (addOffset (easterDay orthodox y * nsDay) (some o))
      omega
  · rintro ⟨y, h1, h2, rfl, h3, h4⟩
    refine ⟨y, h1, h2, rfl, ?_⟩
    by_cases h5 : date 2004 1 1 ≤ addOffset (date 2004 1 1) (some o)
    · exact .inl ⟨h5, h4⟩
    · exact .inr ⟨by omega, h3⟩

/-- 48 days before Easter, at noon; 4 months before Easter is in the year before. -/
example : Offset.OneWay { days := -48, hours := 12 } ∧ Offset.OneWay { months := -4 } ∧ fD.Daily := by
  refine ⟨?_, ?_, .inr (.inr (.inr rfl))⟩ <;> (unfold Offset.OneWay; decide)

example : fromEaster false none (some { days := -48, hours := 12 }) (years 2016 2) fH = .ok [date 2016 2 8 + 12 * nsHour, date 2017 2 27 + 12 * nsHour] ∧
    fromEaster false none (some { months := -4 }) (years 2016 2) fD = .ok [] := by decide +kernel

/-- **C45** is about offsets without negative parts. The documentation says that a point outside its period is omitted; with mixed signs a point before its
period may stay. A year forward and 366 days back do not lead back from 1 January 2004, a leap year, though they do from other years: the point of 2017 is in
2016. -/
theorem C45_mixed_signs : ∃ (o : Offset) (pi : Frame) (ts : List Time), fromStartOfEach (some o) pi fD = .ok ts ∧ ∃ t ∈ ts, t < pi.startTime :=
  ⟨{ years := 1, days := -366 }, years 2017 1, [date 2016 12 31], by decide +kernel, date 2016 12 31, List.mem_cons_self .., by decide +kernel⟩

example : fromStartOfEach (some { years := 1, days := -366 }) (years 2016 2) fD = .ok [date 2016 1 1, date 2016 12 31] ∧
    fromStartOfEach (some { years := 1, days := -367 }) (years 2016 2) fD = .ok [] := by decide +kernel

end TB
