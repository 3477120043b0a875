import Verif.Model.When
import Verif.Lemmas.Weekday
import Verif.Lemmas.Marks
/-! Points in time derived from calendar periods. -/
namespace TB

theorem dayOf_mul (d : Int) : dayOf (d * nsDay) = d := Int.mul_ediv_cancel _ (by decide)

theorem addMonths_zero (t : Time) : addMonths t 0 = t := by
  unfold addMonths monthLen dayOfMonth
  have h := monthOf_spec (dayOf t)
  simp only [Int.add_zero]
  have e := Int.mul_ediv_add_emod t nsDay
  have : monthStart (monthOf (dayOf t)) + min (dayOf t - monthStart (monthOf (dayOf t)) + 1)
      (monthStart (monthOf (dayOf t) + 1) - monthStart (monthOf (dayOf t))) - 1 = dayOf t := by omega
  rw [this]
  unfold dayOf
  rw [Int.mul_comm]; exact e

theorem addOffset_days (t : Time) (n : Int) : addOffset t (some { days := n }) = t + n * nsDay := by
  simp only [addOffset, Offset.fixed, Int.mul_zero, Int.add_zero, addMonths_zero, Int.zero_mul, Int.zero_add]

/-- Masks of arrays which are given by functions of the position. -/
theorem maskBy_map {α : Type} (p : Time → Time → Bool) (l : List α) (f g : α → Time) :
    maskBy p (l.map f) (l.map g) = .ok ((l.filter (fun i => p (f i) (g i))).map f) := by
  unfold maskBy
  rw [if_pos (by simp)]
  congr 1
  induction l with
  | nil => rfl
  | cons a l ih =>
    simp only [List.map_cons, List.zip_cons_cons, List.filter_cons]
    split
    · simp only [List.map_cons, ih]
    · exact ih

theorem dedup_of_pairwise {l : List Int} (h : l.Pairwise (· < ·)) : dedup l = l := by
  induction l with
  | nil => rfl
  | cons x l ih =>
    rw [List.pairwise_cons] at h
    unfold dedup
    rw [ih h.2, if_neg]
    intro hx
    cases l with
    | nil => simp at hx
    | cons y l =>
      simp only [List.head?_cons, Option.some.injEq] at hx
      have := h.1 y (by simp)
      omega

/-- Frequencies whose periods consist of whole months. -/
def Base.Monthly : Base → Prop
  | .M | .Q _ | .A _ => True
  | _ => False

instance : DecidablePred Base.Monthly := fun b => by cases b <;> unfold Base.Monthly <;> infer_instance

theorem Frame.monthly (f : Frame) (h : f.freq.base.Monthly) :
    ∃ c P : Int, 1 ≤ P ∧ ∀ i, f.unitStart i = monthStart (c + P * i) * nsDay := by
  have hm := f.freq.mult_pos
  unfold Frame.unitStart Frame.ord
  cases hb : f.freq.base with
  | M => exact ⟨f.o0, f.freq.mult, by omega, fun i => rfl⟩
  | Q e =>
    refine ⟨3 * f.o0 + (((e : Nat) : Int) + 1) % 3, 3 * f.freq.mult, by omega, fun i => ?_⟩
    simp only [Base.startOf]
    congr 2
    rw [Int.mul_add, Int.mul_assoc]; omega
  | A e =>
    refine ⟨12 * f.o0 + (((e : Nat) : Int) + 1) % 12, 12 * f.freq.mult, by omega, fun i => ?_⟩
    simp only [Base.startOf]
    congr 2
    rw [Int.mul_add, Int.mul_assoc]; omega
  | S => rw [hb] at h; exact h.elim
  | T => rw [hb] at h; exact h.elim
  | H => rw [hb] at h; exact h.elim
  | D => rw [hb] at h; exact h.elim
  | W e => rw [hb] at h; exact h.elim

theorem monthOf_monthStart (k : Int) : monthOf (monthStart k) = k :=
  monthOf_unique (by omega) (monthStart_lt_succ k)

theorem monthStart_lt_iff (a b : Int) : monthStart a < monthStart b ↔ a < b := by
  constructor
  · intro h
    apply Classical.byContradiction
    intro hn
    have := monthStart_le (show b ≤ a by omega)
    omega
  · exact monthStart_lt

/-- The n-th weekday counted from the beginning of a month, as pandas offsets. -/
theorem addWeeks_pos {a week wd : Int} (hn : 0 < week) :
    addWeeks a (week - (if weekday a = wd then 1 else 0)) wd = a + (wd - weekday a) % 7 + 7 * (week - 1) := by
  unfold addWeeks
  have : 0 ≤ weekday a ∧ weekday a < 7 := by unfold weekday; omega
  by_cases h : weekday a = wd
  · simp only [h, ne_eq, not_true_eq_false, if_false, if_true]; omega
  · simp only [h, ne_eq, not_false_eq_true, if_false, if_true]
    rw [if_pos (by omega)]
    omega

/-- The n-th weekday counted from the end of a month, as pandas offsets. -/
theorem addWeeks_neg {a week wd : Int} (hw : 0 ≤ wd ∧ wd < 7) (hn : week < 0) :
    addWeeks a (week + (if weekday a = wd then 1 else 0)) wd = a - (weekday a - wd) % 7 + 7 * (week + 1) := by
  unfold addWeeks
  have : 0 ≤ weekday a ∧ weekday a < 7 := by unfold weekday; omega
  by_cases h : weekday a = wd
  · simp only [h, ne_eq, not_true_eq_false, if_false, if_true]; omega
  · simp only [h, ne_eq, not_false_eq_true, if_false, if_true]
    rw [if_neg (by omega)]
    omega

/-- The arguments of `nth_weekday_of_month` are acceptable. -/
def NthArgs (month week wday : Int) : Prop :=
  (1 ≤ month ∧ month ≤ 12) ∧ (1 ≤ wday ∧ wday ≤ 7) ∧ ((1 ≤ week ∧ week ≤ 5) ∨ (-5 ≤ week ∧ week ≤ -1))

theorem nthWeekdayOfMonth_bad {month week wday : Int} {shift : Option Int} {pi : Frame} {nb : Freq} (h : ¬ NthArgs month week wday) :
    nthWeekdayOfMonth month week wday shift pi nb = .error .assertionError := by
  unfold nthWeekdayOfMonth
  rw [if_pos]
  unfold NthArgs at h
  omega

/-- The general form of the result. -/
theorem nthWeekdayOfMonth_eq {month week wday : Int} {shift : Option Int} {pi : Frame} {nb : Freq} (h : NthArgs month week wday)
    (hm : pi.freq.base.Monthly) : ∃ (idx : List Nat) (day : Nat → Int), idx.Pairwise (· < ·) ∧
      nthWeekdayOfMonth month week wday shift pi nb = .ok (idx.map (fun i => (day i + shift.getD 0) * nsDay)) ∧
      ∀ i d, (i ∈ idx ∧ d = day i) ↔ (i < pi.n ∧ monthStart (monthOf (dayOf (pi.unitStart i)) + (month - 1)) * nsDay ≤ pi.unitEnd i ∧
        IsNthWeekday (monthOf (dayOf (pi.unitStart i)) + (month - 1)) (wday - 1) week d) := by
  obtain ⟨c, P, hP, hu⟩ := pi.monthly hm
  obtain ⟨h1, h2, h3⟩ := h
  have hmo : ∀ i, monthOf (dayOf (pi.unitStart i)) = c + P * i := by intro i; rw [hu, dayOf_mul, monthOf_monthStart]
  have hue : ∀ i, pi.unitEnd i = monthStart (c + P * i + P) * nsDay - 1 := by
    intro i; rw [Frame.unitEnd_eq, hu]; congr 3; rw [Int.mul_add]; omega
  have hin : ∀ i, monthStart (c + P * i + (month - 1)) * nsDay ≤ pi.unitEnd i ↔ month ≤ P := by
    intro i
    rw [hue]
    have := monthStart_lt_iff (c + P * i + (month - 1)) (c + P * i + P)
    simp only [nsDay]
    omega
  have hin2 : ∀ i, (monthStart (c + P * i + month) - 1) * nsDay ≤ pi.unitEnd i ↔ month ≤ P := by
    intro i
    rw [hue]
    have := monthStart_lt_iff (c + P * i + P) (c + P * i + month)
    simp only [nsDay]
    omega
  have hms : dedup (pi.startTimes.map (fun t => monthOf (dayOf t))) = (List.range pi.n).map (fun (i : Nat) => c + P * (i : Int)) := by
    have : pi.startTimes.map (fun t => monthOf (dayOf t)) = (List.range pi.n).map (fun (i : Nat) => c + P * (i : Int)) := by
      unfold Frame.startTimes
      rw [List.map_map]
      apply List.map_congr_left
      intro i _
      exact hmo i
    rw [this]
    apply dedup_of_pairwise
    rw [List.pairwise_map]
    apply List.Pairwise.imp _ List.pairwise_lt_range
    intro a b hab
    have := Int.mul_lt_mul_of_pos_left (show (a : Int) < b by omega) (show 0 < P by omega)
    omega
  have hnot : ¬ (¬ (1 ≤ month ∧ month ≤ 12) ∨ ¬ (1 ≤ wday ∧ wday ≤ 7) ∨ ¬ ((1 ≤ week ∧ week ≤ 5) ∨ (-5 ≤ week ∧ week ≤ -1))) := by omega
  have hmask : ∀ l : List Nat, (∀ q : Nat → Int, (∀ i : Nat, q i ≤ pi.unitEnd i ↔ month ≤ P) →
      l.filter (fun i => decide (q i ≤ pi.unitEnd i)) = if month ≤ P then l else []) := by
    intro l q hq
    split
    · rename_i hl; rw [List.filter_eq_self]; intro a _; simp [hq, hl]
    · rename_i hl; rw [List.filter_eq_nil_iff]; intro a _; simp [hq, hl]
  unfold nthWeekdayOfMonth
  rw [if_neg hnot]
  simp only [Bind.bind, Except.bind, pure, Except.pure, hms, List.map_map, Function.comp_def, Frame.endTimes]
  rw [maskBy_map, maskBy_map, hmask _ _ (fun i => hin i), hmask _ _ (fun i => hin2 i)]
  simp only [List.map_map, Function.comp_def, dayOf_mul]
  have hsub : ∀ i : Nat, c + P * (i : Int) + (month - 1) + 1 = c + P * (i : Int) + month := by intro i; omega
  have hpl : (if month ≤ P then List.range pi.n else []).Pairwise (· < ·) := by
    split
    · exact List.pairwise_lt_range
    · exact .nil
  have hmem : ∀ i, i ∈ (if month ≤ P then List.range pi.n else []) ↔ i < pi.n ∧ month ≤ P := by
    intro i
    split
    · rename_i hl; simp [hl]
    · rename_i hl; simp [hl]
  by_cases hwk : week > 0
  · simp only [if_pos hwk]
    rw [maskBy_map]
    simp only [List.map_map, Function.comp_def, addOffset_days, ← Int.add_mul]
    refine ⟨_, _, hpl.filter _, rfl, ?_⟩
    intro i d
    rw [List.mem_filter, hmem, hmo, hin, isNthWeekday_pos (by omega) (by omega) hwk, addWeeks_pos hwk, hsub, decide_eq_true_eq]
    have : ∀ x : Int, x * nsDay ≤ (monthStart (c + P * (i : Int) + month) - 1) * nsDay ↔ x < monthStart (c + P * (i : Int) + month) := by
      intro x; simp only [nsDay]; omega
    rw [this]
    constructor
    · rintro ⟨⟨⟨a, b⟩, e⟩, rfl⟩; exact ⟨a, b, rfl, e⟩
    · rintro ⟨a, b, rfl, e⟩; exact ⟨⟨⟨a, b⟩, e⟩, rfl⟩
  · have hwk' : week < 0 := by omega
    simp only [if_neg hwk]
    rw [maskBy_map]
    simp only [List.map_map, Function.comp_def, addOffset_days, ← Int.add_mul]
    refine ⟨_, _, hpl.filter _, rfl, ?_⟩
    intro i d
    rw [List.mem_filter, hmem, hmo, hin, isNthWeekday_neg (by omega) (by omega) hwk', addWeeks_neg (by omega) hwk', hsub, decide_eq_true_eq]
    have : ∀ x : Int, monthStart (c + P * (i : Int) + (month - 1)) * nsDay ≤ x * nsDay ↔ monthStart (c + P * (i : Int) + (month - 1)) ≤ x := by
      intro x; simp only [nsDay]; omega
    rw [this]
    constructor
    · rintro ⟨⟨⟨a, b⟩, e⟩, rfl⟩; exact ⟨a, b, rfl, e⟩
    · rintro ⟨a, b, rfl, e⟩; exact ⟨⟨⟨a, b⟩, e⟩, rfl⟩

end TB
