import Verif.Spec.Weekday
import Verif.Lemmas.Freq
import Verif.Lemmas.Layout4
/-! Weekdays of a month. -/
namespace TB

theorem countWeekday_le (wd a b : Int) (h : b < a) : countWeekday wd a b = 0 := by
  unfold countWeekday
  rw [intRange_empty (by omega)]; rfl

theorem countWeekday_append (wd : Int) {a b c : Int} (h1 : a ≤ b + 1) (h2 : b ≤ c) :
    countWeekday wd a c = countWeekday wd a b + countWeekday wd (b + 1) c := by
  unfold countWeekday
  rw [← intRange_append (a := a) (b := b + 1) (c := c + 1) (by omega) (by omega), List.filter_append, List.length_append]

theorem countWeekday_short (wd a : Int) : countWeekday wd a a = if weekday a = wd then 1 else 0 := by
  unfold countWeekday
  rw [intRange_cons (by omega), intRange_empty (by omega)]
  by_cases h : weekday a = wd <;> simp [h]

theorem countWeekday_zero (wd : Int) {a b : Int} (h : ∀ x, a ≤ x → x ≤ b → weekday x ≠ wd) : countWeekday wd a b = 0 := by
  unfold countWeekday
  rw [List.length_eq_zero_iff, List.filter_eq_nil_iff]
  intro x hx
  rw [mem_intRange] at hx
  simp [h x hx.1 (by omega)]

/-- Counting up to such a day. -/
theorem countWeekday_to (n : Nat) : ∀ {a d : Int}, a ≤ d → ((d - a) / 7).toNat = n →
    (countWeekday (weekday d) a d : Int) = (d - a) / 7 + 1 := by
  induction n with
  | zero =>
    intro a d h hn
    rw [countWeekday_append _ (b := d - 1) (by omega) (by omega), countWeekday_zero, Int.sub_add_cancel, countWeekday_short]
    · simp; omega
    · intro x h1 h2; unfold weekday; omega
  | succ n ih =>
    intro a d h hn
    have e : weekday (d - 7) = weekday d := by unfold weekday; omega
    have := ih (a := a) (d := d - 7) (by omega) (by omega)
    rw [e] at this
    rw [countWeekday_append _ (b := d - 7) (by omega) (by omega), countWeekday_append _ (a := d - 7 + 1) (b := d - 1) (by omega) (by omega),
      countWeekday_zero (a := d - 7 + 1), Int.sub_add_cancel, countWeekday_short]
    · simp; omega
    · intro x h1 h2; unfold weekday; omega

/-- Counting from such a day. -/
theorem countWeekday_from (n : Nat) : ∀ {d b : Int}, d ≤ b → ((b - d) / 7).toNat = n →
    (countWeekday (weekday d) d b : Int) = (b - d) / 7 + 1 := by
  induction n with
  | zero =>
    intro d b h hn
    rw [countWeekday_append _ (b := d) (by omega) (by omega), countWeekday_short, countWeekday_zero]
    · simp; omega
    · intro x h1 h2; unfold weekday; omega
  | succ n ih =>
    intro d b h hn
    have e : weekday (d + 7) = weekday d := by unfold weekday; omega
    have := ih (d := d + 7) (b := b) (by omega) (by omega)
    rw [e] at this
    rw [countWeekday_append _ (b := d) (by omega) (by omega), countWeekday_short, countWeekday_append _ (a := d + 1) (b := d + 7 - 1) (by omega) (by omega),
      countWeekday_zero (a := d + 1), Int.sub_add_cancel]
    · simp; omega
    · intro x h1 h2; unfold weekday; omega

/-- The `n`-th weekday, by a formula. -/
theorem isNthWeekday_pos {k wd n d : Int} (hw0 : 0 ≤ wd) (hw1 : wd < 7) (hn : 0 < n) :
    IsNthWeekday k wd n d ↔ (d = monthStart k + (wd - weekday (monthStart k)) % 7 + 7 * (n - 1) ∧ d < monthStart (k + 1)) := by
  unfold IsNthWeekday
  constructor
  · rintro ⟨h1, h2, rfl, ⟨_, h4⟩ | ⟨h4, _⟩⟩
    · rw [countWeekday_to _ h1 rfl] at h4
      refine ⟨?_, h2⟩
      unfold weekday; omega
    · omega
  · rintro ⟨rfl, h2⟩
    generalize monthStart k = a at *
    have hw : weekday (a + (wd - weekday a) % 7 + 7 * (n - 1)) = wd := by unfold weekday; omega
    have hle : a ≤ a + (wd - weekday a) % 7 + 7 * (n - 1) := by omega
    refine ⟨hle, h2, hw, .inl ⟨hn, ?_⟩⟩
    have := countWeekday_to _ hle rfl
    rw [hw] at this
    rw [this]; omega

theorem isNthWeekday_neg {k wd n d : Int} (hw0 : 0 ≤ wd) (hw1 : wd < 7) (hn : n < 0) :
    IsNthWeekday k wd n d ↔ (d = monthStart (k + 1) - 1 - (weekday (monthStart (k + 1) - 1) - wd) % 7 + 7 * (n + 1) ∧ monthStart k ≤ d) := by
  unfold IsNthWeekday
  constructor
  · rintro ⟨h1, h2, rfl, ⟨h4, _⟩ | ⟨_, h4⟩⟩
    · omega
    · rw [countWeekday_from _ (by omega : d ≤ monthStart (k + 1) - 1) rfl] at h4
      refine ⟨?_, h1⟩
      unfold weekday; omega
  · rintro ⟨rfl, h2⟩
    generalize monthStart (k + 1) = b at *
    have hw : weekday (b - 1 - (weekday (b - 1) - wd) % 7 + 7 * (n + 1)) = wd := by unfold weekday; omega
    have hle : b - 1 - (weekday (b - 1) - wd) % 7 + 7 * (n + 1) ≤ b - 1 := by omega
    refine ⟨h2, by omega, hw, .inr ⟨hn, ?_⟩⟩
    have := countWeekday_from _ hle rfl
    rw [hw] at this
    rw [this]; omega

theorem IsNthWeekday.unique {k wd n d d' : Int} (hw0 : 0 ≤ wd) (hw1 : wd < 7) (hn : n ≠ 0) (h : IsNthWeekday k wd n d) (h' : IsNthWeekday k wd n d') :
    d = d' := by
  rcases Int.lt_or_gt_of_ne hn with h0 | h0
  · rw [isNthWeekday_neg hw0 hw1 h0] at h h'; omega
  · rw [isNthWeekday_pos hw0 hw1 h0] at h h'; omega

end TB
