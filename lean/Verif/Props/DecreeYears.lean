import Verif.Props.DaysOff
import Verif.Props.DecreeNorms
import Verif.Props.Decrees
/-! # C102: working days and hours of a year in the Russian calendar -/
namespace TB

/-- The years of the calendar. -/
theorem ru_years {w se : Bool} {cs ce : Option Time} {heap : Heap Int} {tb : Timeboard Int} (h : (ruCalendar w se).new cs ce false false none heap = .ok tb) {y : Int}
    (h1 : tb.startTime ≤ dayNum y 1 1 * nsDay) (h2 : dayNum (y + 1) 1 1 * nsDay - 1 ≤ tb.endTime) : 2005 ≤ y ∧ y ≤ 2021 := by
  obtain ⟨r1, r2, _⟩ := C52_ranges (ruCalendar w se) 2005 2021 (.inr ⟨⟨_, _, rfl⟩, rfl, rfl⟩)
  exact year_range (.ru _ _) r1 r2 h h1 h2

/-- **C102**, Russia: the interval of a year which lies within the calendar counts the official number of working days and has the official number of working hours; with the
options, what `ruYear` makes of them. -/
theorem C102_ru {workOnDec31 shortEves : Bool} {cs ce : Option Time} {heap : Heap Int} {tb : Timeboard Int}
    (h : (ruCalendar workOnDec31 shortEves).new cs ce false false none heap = .ok tb) (t : Time)
    (h1 : tb.startTime ≤ dayNum (yearOf (dayOf t)) 1 1 * nsDay) (h2 : dayNum (yearOf (dayOf t) + 1) 1 1 * nsDay - 1 ≤ tb.endTime) :
    ∃ p ∈ norms, p.1 = yearOf (dayOf t) ∧ ∃ v, tb.getInterval (some (.point t)) none (some (Denom.A none).freq) = .ok v ∧
      v.count tb = .ok (ruYear workOnDec31 shortEves p).1 ∧ v.worktime tb hours = .ok (((ruYear workOnDec31 shortEves p).2 : Int) : Rat) := by
  have hy := ru_years h h1 h2
  obtain ⟨v, hv, v1, v2⟩ := year_labels (.ru workOnDec31 shortEves) h t h1 h2 (ruHours workOnDec31 shortEves (yearOf (dayOf t))) (by
    intro D hD
    have hD := mem_daysOfYear.1 hD
    have := C65_ru_labels h (D * nsDay) (by unfold nsDay at *; omega) (by unfold nsDay at *; omega)
    rw [dayOf_mul, year_of_day hD.1 hD.2] at this
    exact this)
  obtain ⟨p, hp, e⟩ : ∃ p ∈ norms, p.1 = yearOf (dayOf t) := by
    generalize yearOf (dayOf t) = y at hy
    obtain ⟨q1, q2⟩ := hy
    have : y ∈ norms.map (fun p => p.1) := by
      have : norms.map (fun p => p.1) = (List.range 17).map (fun (i : Nat) => (2005 : Int) + i) := by decide
      rw [this, List.mem_map]
      exact ⟨(y - 2005).toNat, by simp; omega, by omega⟩
    obtain ⟨p, hp, e⟩ := List.mem_map.1 this
    exact ⟨p, hp, e⟩
  refine ⟨p, hp, e, v, hv, ?_⟩
  have key := ru_year p hp workOnDec31 shortEves
  rw [tally_spec, e] at key
  have hpos : ∀ D, ruHours workOnDec31 shortEves (yearOf (dayOf t)) D ≠ 0 ↔ 0 < ruHours workOnDec31 shortEves (yearOf (dayOf t)) D := by
    intro D
    unfold ruHours
    split
    · simp
    split
    · simp
    split
    · cases shortEves <;> decide
    split
    · decide
    split <;> decide
  have hlen : ((daysOfYear (yearOf (dayOf t))).filter (fun D => ruHours workOnDec31 shortEves (yearOf (dayOf t)) D != 0)).length =
      (((daysOfYear (yearOf (dayOf t))).map (ruHours workOnDec31 shortEves (yearOf (dayOf t)))).filter (fun x => decide (0 < x))).length := by
    rw [List.filter_map, List.length_map]
    congr 2
    funext D
    have := hpos D
    simp only [Function.comp]
    by_cases hx : 0 < ruHours workOnDec31 shortEves (yearOf (dayOf t)) D
    · simp [hx, this.2 hx]
    · have h0 : ruHours workOnDec31 shortEves (yearOf (dayOf t)) D = 0 := Classical.byContradiction fun g => hx (this.1 g)
      simp [h0]
  rw [v1, v2, hlen, ← key]
  exact ⟨rfl, rfl⟩

/-- The hypotheses are met, and what the numbers are. -/
example : (do
    let tb ← (ruCalendar false true).new (some (date 2015 1 1)) (some (date 2015 12 31)) false false none (fun _ => Cycle.start [])
    let v ← tb.getInterval (some (.point (date 2015 7 1))) none (some (Denom.A none).freq)
    let n ← v.count tb
    return (n, decide (tb.startTime ≤ dayNum 2015 1 1 * nsDay ∧ dayNum 2016 1 1 * nsDay - 1 ≤ tb.endTime))) = .ok (246, true) := by decide +kernel
example : (ruYear true true (2015, 247, 1971), ruYear false true (2015, 247, 1971), ruYear true false (2015, 247, 1971), ruYear false true (2016, 247, 1974)) =
    ((247, 1971), (246, 1964), (247, 1976), (247, 1974)) := by decide +kernel

end TB
