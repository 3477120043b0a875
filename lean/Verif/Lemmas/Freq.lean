import Verif.Model.Freq
import Verif.Lemmas.Calendar
/-! Floor laws of calendar periods. -/
namespace TB

theorem Freq.mult_pos (f : Freq) : 0 < f.mult := by
  unfold Freq.mult
  have := f.pos
  cases h : f.factor with
  | none => simp
  | some n => simp [h] at this ⊢; omega

theorem monthStart_mono_nat (k : Int) (n : Nat) : monthStart k + n ≤ monthStart (k + n) := by
  induction n with
  | zero => simp
  | succ n ih =>
    have := monthStart_lt_succ (k + n)
    have e : k + ((n + 1 : Nat) : Int) = k + n + 1 := by omega
    rw [e]; omega

theorem monthStart_lt {a b : Int} (h : a < b) : monthStart a < monthStart b := by
  have := monthStart_mono_nat a (b - a).toNat
  have e : a + ((b - a).toNat : Int) = b := by omega
  rw [e] at this; omega

theorem monthStart_le {a b : Int} (h : a ≤ b) : monthStart a ≤ monthStart b := by
  rcases Int.lt_or_eq_of_le h with h | h
  · exact Int.le_of_lt (monthStart_lt h)
  · rw [h]; exact Int.le_refl _

theorem monthOf_unique {d k : Int} (h1 : monthStart k ≤ d) (h2 : d < monthStart (k + 1)) : monthOf d = k := by
  obtain ⟨h3, h4⟩ := monthOf_spec d
  rcases Int.lt_trichotomy (monthOf d) k with h | h | h
  · have := monthStart_le (show monthOf d + 1 ≤ k by omega); omega
  · exact h
  · have := monthStart_le (show k + 1 ≤ monthOf d by omega); omega

theorem monthStart_le_iff {d k : Int} : monthStart k ≤ d ↔ k ≤ monthOf d := by
  obtain ⟨h3, h4⟩ := monthOf_spec d
  constructor
  · intro h
    rcases Int.lt_or_le (monthOf d) k with h' | h'
    · have := monthStart_le (show monthOf d + 1 ≤ k by omega); omega
    · exact h'
  · intro h; have := monthStart_le h; omega

theorem nsDay_pos : (0:Int) < nsDay := by decide
theorem nsSec_pos : (0:Int) < nsSec := by decide

/-- Galois connection: the period `o` has started by `t` iff `o` does not exceed the period of `t`. -/
theorem Base.startOf_le_iff (b : Base) (o : Int) (t : Time) : b.startOf o ≤ t ↔ o ≤ b.ordOf t := by
  cases b with
  | S => simp only [Base.startOf, Base.ordOf, nsSec]; omega
  | T => simp only [Base.startOf, Base.ordOf, nsMin]; omega
  | H => simp only [Base.startOf, Base.ordOf, nsHour]; omega
  | D => simp only [Base.startOf, Base.ordOf, nsDay]; omega
  | W e => simp only [Base.startOf, Base.ordOf, nsDay]; omega
  | M =>
    simp only [Base.startOf, Base.ordOf]
    rw [← monthStart_le_iff]
    simp only [nsDay]; omega
  | Q e =>
    simp only [Base.startOf, Base.ordOf]
    have : monthStart (3 * o + (((e:Nat):Int) + 1) % 3) * nsDay ≤ t ↔
        monthStart (3 * o + (((e:Nat):Int) + 1) % 3) ≤ t / nsDay := by simp only [nsDay]; omega
    rw [this, monthStart_le_iff]; omega
  | A e =>
    simp only [Base.startOf, Base.ordOf]
    have : monthStart (12 * o + (((e:Nat):Int) + 1) % 12) * nsDay ≤ t ↔
        monthStart (12 * o + (((e:Nat):Int) + 1) % 12) ≤ t / nsDay := by simp only [nsDay]; omega
    rw [this, monthStart_le_iff]; omega

/-- A period lasts at least one second. -/
theorem Base.startOf_step (b : Base) (o : Int) : b.startOf o + nsSec ≤ b.startOf (o + 1) := by
  cases b with
  | S => simp only [Base.startOf, nsSec]; omega
  | T => simp only [Base.startOf, nsMin, nsSec]; omega
  | H => simp only [Base.startOf, nsHour, nsSec]; omega
  | D => simp only [Base.startOf, nsDay, nsSec]; omega
  | W e => simp only [Base.startOf, nsDay, nsSec]; omega
  | M =>
    simp only [Base.startOf]
    have := monthStart_lt_succ o
    simp only [nsDay, nsSec]; omega
  | Q e =>
    simp only [Base.startOf]
    have := monthStart_lt (show 3 * o + (((e:Nat):Int) + 1) % 3 < 3 * (o + 1) + (((e:Nat):Int) + 1) % 3 by omega)
    simp only [nsDay, nsSec]; omega
  | A e =>
    simp only [Base.startOf]
    have := monthStart_lt (show 12 * o + (((e:Nat):Int) + 1) % 12 < 12 * (o + 1) + (((e:Nat):Int) + 1) % 12 by omega)
    simp only [nsDay, nsSec]; omega

theorem Base.startOf_le_self (b : Base) (t : Time) : b.startOf (b.ordOf t) ≤ t :=
  (b.startOf_le_iff _ _).2 (Int.le_refl _)

theorem Base.lt_startOf_succ (b : Base) (t : Time) : t < b.startOf (b.ordOf t + 1) := by
  rcases Int.lt_or_le t (b.startOf (b.ordOf t + 1)) with h | h
  · exact h
  · have := (b.startOf_le_iff _ _).1 h; omega

theorem Base.lt_startOf_iff (b : Base) (o : Int) (t : Time) : t < b.startOf o ↔ b.ordOf t < o := by
  have := b.startOf_le_iff o t
  omega

theorem Base.ordOf_startOf (b : Base) (o : Int) : b.ordOf (b.startOf o) = o := by
  have h1 := (b.startOf_le_iff o (b.startOf o)).1 (Int.le_refl _)
  have h2 := b.startOf_step o
  have h3 : b.startOf o < b.startOf (o + 1) := by have := nsSec_pos; omega
  have := (b.lt_startOf_iff _ _).1 h3
  omega

theorem Base.startOf_lt_iff (b : Base) (o o' : Int) : b.startOf o < b.startOf o' ↔ o < o' := by
  rw [b.lt_startOf_iff, b.ordOf_startOf]

theorem Base.startOf_le_startOf (b : Base) (o o' : Int) : b.startOf o ≤ b.startOf o' ↔ o ≤ o' := by
  rw [b.startOf_le_iff, b.ordOf_startOf]

theorem Base.startOf_inj (b : Base) {o o' : Int} (h : b.startOf o = b.startOf o') : o = o' := by
  have := b.ordOf_startOf o
  rw [h, b.ordOf_startOf] at this; exact this.symm

theorem Base.ordOf_mono (b : Base) {t t' : Time} (h : t ≤ t') : b.ordOf t ≤ b.ordOf t' := by
  rw [← b.startOf_le_iff]
  have := b.startOf_le_self t
  omega

theorem Base.ordOf_eq_iff (b : Base) (t : Time) (o : Int) :
    b.ordOf t = o ↔ b.startOf o ≤ t ∧ t < b.startOf (o + 1) := by
  rw [b.startOf_le_iff, b.lt_startOf_iff]; omega

end TB
