import Verif.Lemmas.MarkerAt
/-! Offsets which lead one way. -/
namespace TB

/-- Months back lead back. -/
theorem addMonths_lt {t : Time} {n : Int} (h : n < 0) : addMonths t n < t := by
  unfold addMonths
  have h1 := monthOf_spec (dayOf t)
  have h2 := monthStart_le (show monthOf (dayOf t) + n + 1 ≤ monthOf (dayOf t) by omega)
  have h4 : monthStart (monthOf (dayOf t) + n) + monthLen (monthOf (dayOf t) + n) = monthStart (monthOf (dayOf t) + n + 1) := by
    unfold monthLen; omega
  have h5 : monthStart (monthOf (dayOf t) + n) + min (dayOfMonth (dayOf t)) (monthLen (monthOf (dayOf t) + n)) - 1 + 1 ≤ dayOf t := by omega
  have h6 := Int.mul_le_mul_of_nonneg_right h5 (show 0 ≤ nsDay by decide)
  have e := Int.mul_ediv_add_emod t nsDay
  have e1 : (0 : Int) < nsDay := by decide
  simp only
  have : dayOf t * nsDay = nsDay * (t / nsDay) := by unfold dayOf; rw [Int.mul_comm]
  rw [Int.add_mul, Int.one_mul, this] at h6
  omega

/-- The offset has no part in months or years which leads one way while the rest leads the other way. -/
def Offset.OneWay (o : Offset) : Prop :=
  (0 ≤ 12 * o.years + o.months ∧ 0 ≤ o.fixed) ∨ (12 * o.years + o.months ≤ 0 ∧ o.fixed ≤ 0) ∨ 12 * o.years + o.months = 0

/-- Such an offset leads back from all points in time or from none. -/
theorem Offset.OneWay.same {o : Offset} (h : o.OneWay) (t u : Time) : t ≤ addOffset t (some o) ↔ u ≤ addOffset u (some o) := by
  have key : ∀ t : Time, t ≤ addOffset t (some o) ↔ 0 ≤ 12 * o.years + o.months ∧ 0 ≤ o.fixed := by
    intro t
    show t ≤ addMonths t (12 * o.years + o.months) + o.fixed ↔ _
    rcases Int.lt_trichotomy (12 * o.years + o.months) 0 with h0 | h0 | h0
    · have := addMonths_lt (t := t) h0
      rcases h with h | h | h <;> omega
    · rw [h0, addMonths_zero]
      omega
    · have := le_addMonths (t := t) (Int.le_of_lt h0)
      rcases h with h | h | h <;> omega
  rw [key, key]

end TB
