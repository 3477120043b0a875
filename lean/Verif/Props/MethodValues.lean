import Verif.Spec.MethodValues
import Verif.Lemmas.Timeboard
import Verif.Lemmas.Intervals
import Verif.Lemmas.Roll
import Verif.Lemmas.ForeignSchedule
import Verif.Props.CountPeriods
import Verif.Examples.Boards
/-! Arguments of any kind given to methods of workshifts and intervals (C123). -/
namespace TB
variable {L : Type}

theorem DutyValue.says_duty {v : DutyValue} {d : Duty} (h : v.Says d) : v.duty = d ∧ v ≠ .unhashable := by
  cases h <;> exact ⟨rfl, by simp⟩

theorem DutyValue.not_says {v : DutyValue} (h : ∀ d, ¬ v.Says d) : v.duty = .other := by
  cases v with
  | word s =>
    simp only [DutyValue.duty]
    split
    · subst_vars; exact absurd .on (h _)
    split
    · subst_vars; exact absurd .off (h _)
    split
    · subst_vars; exact absurd .any (h _)
    split
    · subst_vars; exact absurd .same (h _)
    split
    · subst_vars; exact absurd .alt (h _)
    rfl
  | hashable => rfl
  | unhashable => rfl

theorem ScheduleValue.get_means {v : ScheduleValue L} {so : Option (Schedule L)} (h : v.Means so) (own : Schedule L) : v.get own = .ok (so.getD own) := by
  cases h <;> rfl

theorem ScheduleValue.check_means {v : ScheduleValue L} {so : Option (Schedule L)} (h : v.Means so) (own : Schedule L) : v.check own = .ok (so.getD own) := by
  cases h <;> rfl

theorem ScheduleValue.not_means {v : ScheduleValue L} (h : ∀ so, ¬ v.Means so) : v = .other := by
  cases v with
  | none => exact absurd .none (h _)
  | schedule s => exact absurd .schedule (h _)
  | other => rfl

/-- With arguments of the documented kinds the methods are those of the rest of the model. -/
theorem C123_rolling_same (w : Workshift L) (tb : Timeboard L) {steps : StepsValue} {n : Int} (hn : steps.Is n) {duty : DutyValue} {d : Duty} (hd : duty.Says d)
    {sv : ScheduleValue L} {so : Option (Schedule L)} (hs : sv.Means so) (num : L → Option Rat) :
    w.rollforwardV tb steps duty sv = w.rollforward tb n d so ∧ w.rollbackV tb steps duty sv = w.rollback tb n d so ∧
    w.isOnDutyV tb sv = w.isOnDuty tb so ∧ w.isOffDutyV tb sv = w.isOffDuty tb so ∧ w.worktimeV tb num duty sv = w.worktime tb num d so := by
  obtain ⟨hd1, hd2⟩ := DutyValue.says_duty hd
  have hg := ScheduleValue.get_means hs w.schedule
  refine ⟨?_, ?_, ?_, ?_, ?_⟩
  · simp only [Workshift.rollforwardV, Workshift.rollforward, hg, hd1]
    cases w.dutyIndex tb d (so.getD w.schedule) with
    | error e => rfl
    | ok idx =>
      by_cases hi : (ssLeft idx w.loc : Int) = idx.length
      · simp [hi, bind, Except.bind, throw, throwThe, MonadExceptOf.throw]
      · cases hn <;> simp [hi, bind, Except.bind, throw, throwThe, MonadExceptOf.throw, pure, Except.pure] <;> split <;> rfl
  · simp only [Workshift.rollbackV, Workshift.rollback, hg, hd1]
    cases w.dutyIndex tb d (so.getD w.schedule) with
    | error e => rfl
    | ok idx =>
      by_cases hi : scanBack idx w.loc idx.length = -1
      · simp [hi, bind, Except.bind, throw, throwThe, MonadExceptOf.throw]
      · cases hn <;> simp [hi, bind, Except.bind, throw, throwThe, MonadExceptOf.throw, pure, Except.pure] <;> split <;> rfl
  · simp only [Workshift.isOnDutyV, hg]; rfl
  · simp only [Workshift.isOffDutyV, hg]; rfl
  · simp only [Workshift.worktimeV, hg]
    cases hd <;> rfl

/-- `i + ⌊q⌋` lies within the same bounds as `i + q`. -/
theorem floor_bounds (i len : Int) (q : Rat) : ((i : Rat) + q < 0 ∨ (i : Rat) + q ≥ (len : Rat)) ↔ (i + q.floor < 0 ∨ i + q.floor ≥ len) := by
  have h1 := Rat.floor_lt_iff (a := q) (x := -i)
  have h2 := Rat.le_floor_iff (a := q) (x := len - i)
  rw [Rat.intCast_neg] at h1
  rw [Rat.intCast_sub] at h2
  have e1 : (i : Rat) + q < 0 ↔ q < -(i : Rat) := by grind
  have e2 : (i : Rat) + q ≥ (len : Rat) ↔ (len : Rat) - (i : Rat) ≤ q := by grind
  rw [e1, e2, ← h1, ← h2]
  omega

/-- `i - ⌈q⌉` lies within the same bounds as `i - q`. -/
theorem ceil_bounds (i len : Int) (q : Rat) : ((i : Rat) - q < 0 ∨ (i : Rat) - q ≥ (len : Rat)) ↔ (i - q.ceil < 0 ∨ i - q.ceil ≥ len) := by
  have h1 := Rat.lt_ceil_iff (x := q) (y := i)
  have h2 := Rat.ceil_le_iff (x := q) (y := i - len)
  rw [Rat.intCast_sub] at h2
  have e1 : (i : Rat) - q < 0 ↔ (i : Rat) < q := by grind
  have e2 : (i : Rat) - q ≥ (len : Rat) ↔ q ≤ (i : Rat) - (len : Rat) := by grind
  rw [e1, e2, ← h1, ← h2]
  omega

theorem Workshift.label_loc {tb : Timeboard L} (hv : tb.Valid) {k : Int} (h0 : 0 ≤ k) (h1 : k < tb.timeline.len) {sch : Option (Schedule L)} {w : Workshift L}
    (hw : Workshift.new tb k sch = .ok w) : tb.timeline.label w.loc = .ok w.label ∧ w.schedule = tb.effective sch := by
  obtain ⟨x, e1, e2, e3, e4, _⟩ := Workshift.exists_of_range hv sch h0 h1
  rw [hw] at e1; cases e1
  exact ⟨by rw [e2]; exact e4, e3⟩

/-- All elements of a duty index are positions on the timeline. -/
theorem Workshift.dutyIndex_good {tb : Timeboard L} (hv : tb.Valid) {w : Workshift L} {l : L} (hl : tb.timeline.label w.loc = .ok l) {s : Schedule L} (ho : tb.Owns s)
    {v : DutyValue} {d : Duty} (hd : v.Says d) : ∃ idx, w.dutyIndex tb d s = .ok idx ∧ ∀ i : Int, 0 ≤ i → i < idx.length → ∃ w', workshiftAt tb idx i s = .ok w' := by
  have key : ∀ d', (d' = .on ∨ d' = .off ∨ d' = .any) → w.dutyIndex tb d s = w.dutyIndex tb d' s →
      ∃ idx, w.dutyIndex tb d s = .ok idx ∧ ∀ i : Int, 0 ≤ i → i < idx.length → ∃ w', workshiftAt tb idx i s = .ok w' := by
    intro d' hd' e
    refine ⟨_, e.trans (Workshift.dutyIndex_eq hv hl ho hd'), ?_⟩
    intro i h0 h1
    have hm := List.getElem_mem (l := tb.allPositions s.selector d') (n := i.toNat) (by omega)
    rw [hv.mem_allPositions] at hm
    obtain ⟨w', e1, _⟩ := Workshift.exists_of_range hv (some s) hm.1 hm.2.1
    refine ⟨w', ?_⟩
    simp only [workshiftAt, pyGet?_lt _ h0 h1]
    exact e1
  cases hd with
  | on => exact key .on (.inl rfl) rfl
  | off => exact key .off (.inr (.inl rfl)) rfl
  | any => exact key .any (.inr (.inr rfl)) rfl
  | same => exact key _ (by split <;> simp) (Workshift.dutyIndex_same hl s)
  | alt => exact key _ (by split <;> simp) (Workshift.dutyIndex_alt hl s)

theorem ssLeft_range (xs : List Int) (v : Int) : 0 ≤ ssLeft xs v ∧ ssLeft xs v ≤ xs.length := by
  unfold ssLeft
  have := (List.takeWhile_sublist (l := xs) (fun x => decide (x < v))).length_le
  omega

theorem scanBack_range (xs : List Int) (v : Int) : ∀ k : Nat, -1 ≤ scanBack xs v k ∧ scanBack xs v k < k
  | 0 => by simp [scanBack]
  | k + 1 => by
    have := scanBack_range xs v k
    unfold scanBack
    split
    · split <;> omega
    · omega

/-- Rolling succeeds only with an integer number of steps, one of the five strings as duty, and nothing or a schedule as schedule. -/
theorem C123_rolling {tb : Timeboard L} (h : tb.Reachable) {k : Int} (h0 : 0 ≤ k) (h1 : k < tb.timeline.len) {sch : Option (Schedule L)} {w : Workshift L}
    (hw : Workshift.new tb k sch = .ok w) (steps : StepsValue) (duty : DutyValue) (sv : ScheduleValue L) (w' : Workshift L) :
    (w.rollforwardV tb steps duty sv = .ok w' ↔ ∃ n d so, steps.Is n ∧ duty.Says d ∧ sv.Means so ∧ w.rollforward tb n d so = .ok w') ∧
    (w.rollbackV tb steps duty sv = .ok w' ↔ ∃ n d so, steps.Is n ∧ duty.Says d ∧ sv.Means so ∧ w.rollback tb n d so = .ok w') := by
  by_cases hs : ∃ so, sv.Means so
  · obtain ⟨so, hs⟩ := hs
    have hg := ScheduleValue.get_means hs w.schedule
    have hu : ∀ so', sv.Means so' → so' = so := by intro so' hs'; cases hs <;> cases hs' <;> rfl
    by_cases hd : ∃ d, duty.Says d
    · obtain ⟨d, hd⟩ := hd
      have hud : ∀ d', duty.Says d' → d' = d := fun d' hd' => (DutyValue.says_duty hd').1.symm.trans (DutyValue.says_duty hd).1
      by_cases hn : ∃ n, steps.Is n
      · obtain ⟨n, hn⟩ := hn
        have hun : ∀ n', steps.Is n' → n' = n := by intro n' hn'; cases hn <;> cases hn' <;> rfl
        have := C123_rolling_same w tb hn hd hs (fun _ => none)
        rw [this.1, this.2.1]
        constructor
        · constructor
          · intro g; exact ⟨n, d, so, hn, hd, hs, g⟩
          · rintro ⟨n', d', so', a, b, c, g⟩; rw [hun _ a, hud _ b, hu _ c] at g; exact g
        · constructor
          · intro g; exact ⟨n, d, so, hn, hd, hs, g⟩
          · rintro ⟨n', d', so', a, b, c, g⟩; rw [hun _ a, hud _ b, hu _ c] at g; exact g
      · have hx : ∀ n, ¬ steps.Is n := fun n hn' => hn ⟨n, hn'⟩
        constructor
        · constructor
          · intro g
            simp only [Workshift.rollforwardV, hg] at g
            split at g
            · cases g
            · split at g
              · cases g
              · cases steps with
                | int n => exact absurd .int (hx _)
                | bool b => cases b; exact absurd .false (hx _); exact absurd .true (hx _)
                | float q => simp only at g; split at g <;> cases g
                | infinite b => cases g
                | nan => cases g
                | other => cases g
          · rintro ⟨n', d', so', a, b, c, g⟩; exact absurd a (hx _)
        · constructor
          · intro g
            simp only [Workshift.rollbackV, hg] at g
            split at g
            · cases g
            · split at g
              · cases g
              · cases steps with
                | int n => exact absurd .int (hx _)
                | bool b => cases b; exact absurd .false (hx _); exact absurd .true (hx _)
                | float q => simp only at g; split at g <;> cases g
                | infinite b => cases g
                | nan => cases g
                | other => cases g
          · rintro ⟨n', d', so', a, b, c, g⟩; exact absurd a (hx _)
    · have hx : ∀ d, ¬ duty.Says d := fun d hd' => hd ⟨d, hd'⟩
      have e := Workshift.dutyIndex_other (Workshift.label_loc h.valid h0 h1 hw).1 (so.getD w.schedule)
      constructor
      · constructor
        · intro g; simp only [Workshift.rollforwardV, hg, DutyValue.not_says hx, e] at g; cases g
        · rintro ⟨n', d', so', a, b, c, g⟩; exact absurd b (hx _)
      · constructor
        · intro g; simp only [Workshift.rollbackV, hg, DutyValue.not_says hx, e] at g; cases g
        · rintro ⟨n', d', so', a, b, c, g⟩; exact absurd b (hx _)
  · have hx : ∀ so, ¬ sv.Means so := fun so hs' => hs ⟨so, hs'⟩
    have := ScheduleValue.not_means hx
    subst this
    constructor
    · constructor
      · intro g; cases g
      · rintro ⟨n', d', so', a, b, c, g⟩; exact absurd c (hx _)
    · constructor
      · intro g; cases g
      · rintro ⟨n', d', so', a, b, c, g⟩; exact absurd c (hx _)

/-- What is raised otherwise.  A value which is not a schedule: AttributeError, whatever the other arguments.  A wrong duty: ValueError, whatever the number of steps.  Then, if there is no
workshift to start from: OutOfBoundsError, whatever the number of steps; else TypeError for values which are not numbers, IndexError for NaN and for fractions (and whole numbers which
are floats), OutOfBoundsError for numbers which are too large. -/
theorem C123_rolling_errors {tb : Timeboard L} (h : tb.Reachable) {k : Int} (h0 : 0 ≤ k) (h1 : k < tb.timeline.len) {sch : Option (Schedule L)} {w : Workshift L}
    (hsch : tb.OwnsOpt sch) (hw : Workshift.new tb k sch = .ok w) (duty : DutyValue) :
    (∀ steps, w.rollforwardV tb steps duty .other = .error .attributeError ∧ w.rollbackV tb steps duty .other = .error .attributeError) ∧
    ∀ (sv : ScheduleValue L) (so : Option (Schedule L)), sv.Means so →
      ((∀ d, ¬ duty.Says d) → ∀ steps, w.rollforwardV tb steps duty sv = .error .valueError ∧ w.rollbackV tb steps duty sv = .error .valueError) ∧
      ∀ d, duty.Says d → tb.OwnsOpt so →
        (w.rollforward tb 0 d so = .error .outOfBounds → ∀ steps, w.rollforwardV tb steps duty sv = .error .outOfBounds) ∧
        (w.rollback tb 0 d so = .error .outOfBounds → ∀ steps, w.rollbackV tb steps duty sv = .error .outOfBounds) ∧
        ((∃ w0, w.rollforward tb 0 d so = .ok w0) →
          w.rollforwardV tb .other duty sv = .error .typeError ∧ w.rollforwardV tb .nan duty sv = .error .indexError ∧
          (∀ b, w.rollforwardV tb (.infinite b) duty sv = .error .outOfBounds) ∧
          ∀ q, w.rollforwardV tb (.float q) duty sv = (match w.rollforward tb q.floor d so with
            | .ok _ => .error .indexError
            | .error e => .error e)) ∧
        ((∃ w0, w.rollback tb 0 d so = .ok w0) →
          w.rollbackV tb .other duty sv = .error .typeError ∧ w.rollbackV tb .nan duty sv = .error .indexError ∧
          (∀ b, w.rollbackV tb (.infinite b) duty sv = .error .outOfBounds) ∧
          ∀ q, w.rollbackV tb (.float q) duty sv = (match w.rollback tb q.ceil d so with
            | .ok _ => .error .indexError
            | .error e => .error e)) := by
  refine ⟨fun _ => ⟨rfl, rfl⟩, ?_⟩
  intro sv so hs
  have hg := ScheduleValue.get_means hs w.schedule
  refine ⟨?_, ?_⟩
  · intro hx steps
    have e := Workshift.dutyIndex_other (Workshift.label_loc h.valid h0 h1 hw).1 (so.getD w.schedule)
    constructor
    · simp only [Workshift.rollforwardV, hg, DutyValue.not_says hx, e]
    · simp only [Workshift.rollbackV, hg, DutyValue.not_says hx, e]
  · intro d hd hso
    have hd1 := (DutyValue.says_duty hd).1
    obtain ⟨hl, hsc⟩ := Workshift.label_loc h.valid h0 h1 hw
    have ho : tb.Owns (so.getD w.schedule) := by
      cases so with
      | none => rw [hsc]; exact h.valid.effective_owned hsch
      | some x => exact hso x rfl
    obtain ⟨idx, hI, hat⟩ := Workshift.dutyIndex_good h.valid hl ho hd
    have hf : ∀ n, w.rollforward tb n d so = (if ssLeft idx w.loc = idx.length ∨ ssLeft idx w.loc + n < 0 ∨ ssLeft idx w.loc + n ≥ idx.length then .error .outOfBounds
          else workshiftAt tb idx (ssLeft idx w.loc + n) (so.getD w.schedule)) := by
      intro n
      simp only [Workshift.rollforward, hI, bind, Except.bind, throw, throwThe, MonadExceptOf.throw]
    have hb : ∀ n, w.rollback tb n d so = (if scanBack idx w.loc idx.length = -1 ∨ scanBack idx w.loc idx.length - n < 0 ∨ scanBack idx w.loc idx.length - n ≥ idx.length
          then .error .outOfBounds else workshiftAt tb idx (scanBack idx w.loc idx.length - n) (so.getD w.schedule)) := by
      intro n
      simp only [Workshift.rollback, hI, bind, Except.bind, throw, throwThe, MonadExceptOf.throw]
    have r1 := ssLeft_range idx w.loc
    have r2 := scanBack_range idx w.loc idx.length
    have hF : ∀ steps, w.rollforwardV tb steps duty sv = _ := fun steps => by
      simp only [Workshift.rollforwardV, hg, hd1, hI]; exact rfl
    have hB : ∀ steps, w.rollbackV tb steps duty sv = _ := fun steps => by
      simp only [Workshift.rollbackV, hg, hd1, hI]; exact rfl
    generalize ssLeft idx w.loc = i at *
    generalize scanBack idx w.loc idx.length = j at *
    refine ⟨?_, ?_, ?_, ?_⟩
    · intro g steps
      rw [hf] at g
      have hi : i = idx.length := by
        split at g
        · omega
        · rename_i hc
          obtain ⟨w', e⟩ := hat (i + 0) (by omega) (by omega)
          rw [e] at g; cases g
      rw [hF, if_pos hi]
    · intro g steps
      rw [hb] at g
      have hj : j = -1 := by
        split at g
        · omega
        · rename_i hc
          obtain ⟨w', e⟩ := hat (j - 0) (by omega) (by omega)
          rw [e] at g; cases g
      rw [hB, if_pos hj]
    · rintro ⟨w0, g⟩
      rw [hf] at g
      have hi : ¬ i = idx.length := by
        intro hi
        rw [if_pos (.inl hi)] at g; cases g
      refine ⟨by rw [hF, if_neg hi], by rw [hF, if_neg hi], fun b => by rw [hF, if_neg hi], fun q => ?_⟩
      rw [hF, if_neg hi, hf]
      simp only
      by_cases hc : (i : Rat) + q < 0 ∨ (i : Rat) + q ≥ ((idx.length : Int) : Rat)
      · rw [if_pos hc, if_pos (.inr ((floor_bounds _ _ _).1 hc))]
      · have hc' : ¬ (i + q.floor < 0 ∨ i + q.floor ≥ idx.length) := fun x => hc ((floor_bounds _ _ _).2 x)
        rw [if_neg hc, if_neg (by omega)]
        obtain ⟨w', e⟩ := hat (i + q.floor) (by omega) (by omega)
        rw [e]
    · rintro ⟨w0, g⟩
      rw [hb] at g
      have hj : ¬ j = -1 := by
        intro hj
        rw [if_pos (.inl hj)] at g; cases g
      refine ⟨by rw [hB, if_neg hj], by rw [hB, if_neg hj], fun b => by rw [hB, if_neg hj], fun q => ?_⟩
      rw [hB, if_neg hj, hb]
      simp only
      by_cases hc : (j : Rat) - q < 0 ∨ (j : Rat) - q ≥ ((idx.length : Int) : Rat)
      · rw [if_pos hc, if_pos (.inr ((ceil_bounds _ _ _).1 hc))]
      · have hc' : ¬ (j - q.ceil < 0 ∨ j - q.ceil ≥ idx.length) := fun x => hc ((ceil_bounds _ _ _).2 x)
        rw [if_neg hc, if_neg (by omega)]
        obtain ⟨w', e⟩ := hat (j - q.ceil) (by omega) (by omega)
        rw [e]

/-! ### Intervals -/

theorem DutyValue.plain_says {v : DutyValue} {d : Duty} (h : v.Plain d) : v.Says d := by
  cases h <;> constructor

theorem DutyValue.plain_duty {v : DutyValue} {d : Duty} (h : v.Plain d) : v.duty = d ∧ (d = .on ∨ d = .off ∨ d = .any) := by
  cases h <;> exact ⟨rfl, by simp⟩

theorem DutyValue.not_plain {v : DutyValue} (h : ∀ d, ¬ v.Plain d) : v.duty = .same ∨ v.duty = .alt ∨ v.duty = .other := by
  by_cases hx : ∃ d, v.Says d
  · obtain ⟨d, hx⟩ := hx
    cases hx with
    | on => exact absurd .on (h _)
    | off => exact absurd .off (h _)
    | any => exact absurd .any (h _)
    | same => exact .inl rfl
    | alt => exact .inr (.inl rfl)
  · exact .inr (.inr (DutyValue.not_says fun d hd => hx ⟨d, hd⟩))

theorem Interval.dutyIdxV_same (v : Interval L) (tb : Timeboard L) {duty : DutyValue} {d : Duty} (hd : duty.Plain d) {sv : ScheduleValue L} {so : Option (Schedule L)}
    (hs : sv.Means so) : v.dutyIdxV tb duty sv = (match v.dutyIdx tb d (so.getD v.schedule) with
      | .error e => .error e
      | .ok (idx, b) => .ok (so.getD v.schedule, idx, b)) := by
  simp only [Interval.dutyIdxV, ScheduleValue.get_means hs v.schedule]
  cases hd <;> rfl

theorem Interval.dutyIdxV_wrong (v : Interval L) (tb : Timeboard L) {duty : DutyValue} (hd : ∀ d, ¬ duty.Plain d) {sv : ScheduleValue L} {so : Option (Schedule L)}
    (hs : sv.Means so) : v.dutyIdxV tb duty sv = .error duty.wrong := by
  simp only [Interval.dutyIdxV, ScheduleValue.get_means hs v.schedule]
  cases duty with
  | unhashable => rfl
  | hashable => rfl
  | word x =>
    simp only [DutyValue.wrong]
    rcases DutyValue.not_plain hd with e | e | e <;> rw [e] <;> rfl

theorem Interval.countV_same (v : Interval L) (tb : Timeboard L) {duty : DutyValue} {d : Duty} (hd : duty.Plain d) {sv : ScheduleValue L} {so : Option (Schedule L)}
    (hs : sv.Means so) : v.countV tb duty sv = v.count tb d so := by
  unfold Interval.countV Interval.count
  rw [v.dutyIdxV_same tb hd hs]
  split
  · rfl
  · cases v.dutyIdx tb d (so.getD v.schedule) with
    | error e => rfl
    | ok p => obtain ⟨idx, b⟩ := p; cases b <;> rfl

theorem Interval.nthV_same (v : Interval L) (tb : Timeboard L) {n : StepsValue} {m : Int} (hn : n.Is m) {duty : DutyValue} {d : Duty} (hd : duty.Plain d)
    {sv : ScheduleValue L} {so : Option (Schedule L)} (hs : sv.Means so) : v.nthV tb n duty sv = v.nth tb m d so := by
  unfold Interval.nthV Interval.nth
  rw [v.dutyIdxV_same tb hd hs]
  split
  · rfl
  · simp only
    cases v.dutyIdx tb d (so.getD v.schedule) with
    | error e => rfl
    | ok p =>
      obtain ⟨idx, b⟩ := p
      cases b with
      | none => rfl
      | some b => cases hn <;> rfl

theorem Interval.totalDurationV_same (v : Interval L) (tb : Timeboard L) {duty : DutyValue} {d : Duty} (hd : duty.Plain d) {sv : ScheduleValue L}
    {so : Option (Schedule L)} (hs : sv.Means so) : v.totalDurationV tb duty sv = v.totalDuration tb d so := by
  unfold Interval.totalDurationV Interval.totalDuration
  rw [v.dutyIdxV_same tb hd hs]
  split
  · rfl
  · cases v.dutyIdx tb d (so.getD v.schedule) with
    | error e => rfl
    | ok p => obtain ⟨idx, b⟩ := p; cases b <;> rfl

theorem workshiftAt_schedule {tb : Timeboard L} {idx : List Int} {i : Int} {s : Schedule L} {w : Workshift L} (h : workshiftAt tb idx i s = .ok w) : w.schedule = s := by
  unfold workshiftAt at h
  split at h
  · cases h
  · exact Workshift.new_schedule h

theorem Interval.nth_schedule {v : Interval L} {tb : Timeboard L} {n : Int} {d : Duty} {so : Option (Schedule L)} {w : Workshift L} (h : v.nth tb n d so = .ok w) :
    w.schedule = so.getD v.schedule := by
  unfold Interval.nth at h
  split at h
  · cases h
  · simp only at h
    split at h
    · cases h
    · cases h
    · generalize (if n ≥ 0 then _ else _ : Int) = i at h
      split at h
      · cases h
      · exact workshiftAt_schedule h

theorem Interval.overlapV_some (v : Interval L) (tb : Timeboard L)
    {sv : ScheduleValue L} {so : Option (Schedule L)} (hs : sv.Means so) (o : Interval L) :
    v.overlapV tb (.interval o) sv = v.overlap tb o (some (so.getD v.schedule)) := by
  unfold Interval.overlapV
  rw [ScheduleValue.check_means hs v.schedule]
  by_cases hv : v.isVoid = true
  · rw [if_pos hv]; simp only [Interval.overlap, hv, if_true, Option.getD_some]
  · rw [if_neg hv]; rfl

theorem Interval.workshiftsV_same (v : Interval L) (tb : Timeboard L) {duty : DutyValue} {d : Duty} (hd : duty.Plain d)
    {sv : ScheduleValue L} {so : Option (Schedule L)} (hs : sv.Means so) :
    v.workshiftsV tb duty sv = v.workshifts tb d so := by
  unfold Interval.workshiftsV Interval.workshifts
  rw [v.dutyIdxV_same tb hd hs]
  split
  · rfl
  · simp only
    cases v.dutyIdx tb d (so.getD v.schedule) with
    | error e => rfl
    | ok p => obtain ⟨idx, b⟩ := p; cases b <;> rfl

theorem Interval.whatPortionOfV_same (v : Interval L) (tb : Timeboard L) {duty : DutyValue} {d : Duty} (hd : duty.Plain d)
    {sv : ScheduleValue L} {so : Option (Schedule L)} (hs : sv.Means so) (o : Interval L) :
    v.whatPortionOfV tb (.interval o) duty sv = v.whatPortionOf tb o d so := by
  unfold Interval.whatPortionOfV Interval.whatPortionOf
  rw [v.overlapV_some tb hs]
  split
  · rfl
  · cases hx : v.overlap tb o (some (so.getD v.schedule)) with
    | error e => simp only [hx, bind, Except.bind]
    | ok x =>
      have hxs := Interval.overlap_schedule hx
      simp only [x.countV_same tb hd .none, o.countV_same tb hd .schedule, OtherValue.get, hxs, hx, bind, Except.bind]
      cases x.count tb d with
      | error e => rfl
      | ok c =>
        simp only
        split
        · rfl
        · cases o.count tb d (some (so.getD v.schedule)) <;> rfl

theorem Interval.worktimeV_same (v : Interval L) (tb : Timeboard L) {duty : DutyValue} {d : Duty} (hd : duty.Plain d)
    {sv : ScheduleValue L} {so : Option (Schedule L)} (hs : sv.Means so) (num : L → Option Rat) :
    v.worktimeV tb num duty sv = v.worktime tb num d so := by
  unfold Interval.worktimeV Interval.worktime Interval.sumLabels
  rw [v.dutyIdxV_same tb hd hs, v.totalDurationV_same tb hd hs]
  split
  · rfl
  · split
    · cases v.dutyIdx tb d (so.getD v.schedule) with
      | error e => rfl
      | ok p => obtain ⟨idx, b⟩ := p; cases b <;> rfl
    · rfl

theorem Interval.countPeriodsV_same (v : Interval L) (tb : Timeboard L) {duty : DutyValue} {d : Duty} (hd : duty.Plain d)
    {sv : ScheduleValue L} {so : Option (Schedule L)} (hs : sv.Means so) (f : Freq) :
    v.countPeriodsV tb (some f) duty sv = v.countPeriods tb f d so := by
  unfold Interval.countPeriodsV Interval.countPeriods
  have e0 := v.nthV_same tb (n := .int 0) .int hd hs
  have e1 := v.nthV_same tb (n := .int (-1)) .int hd hs
  have f0 : v.first tb d (some (so.getD v.schedule)) = v.nth tb 0 d so := rfl
  have f1 : v.last tb d (some (so.getD v.schedule)) = v.nth tb (-1) d so := rfl
  simp only [e0, e1, f0, f1, (DutyValue.plain_duty hd).1]
  split
  · rfl
  · split
    · rfl
    · cases hA : timeOrTypeError (v.startTime tb) with
      | error e => simp only [hA, bind, Except.bind]
      | ok a => cases hB : timeOrTypeError (v.endTime tb) with
        | error e => simp only [hA, hB, bind, Except.bind]
        | ok b => cases hF : Frame.new f a b with
          | error e => simp only [hF, bind, Except.bind]
          | ok index =>
            simp only [hA, hB, hF, bind, Except.bind]
            cases h0 : v.nth tb 0 d so with
            | error e => cases e <;> rfl
            | ok w0 =>
              cases h1 : v.nth tb (-1) d so with
              | error e => cases e <;> rfl
              | ok w1 => simp only [Interval.nth_schedule h0]

/-- With arguments of the documented kinds the methods of intervals, void ones included, are those of the rest of the model. -/
theorem C123_interval_same (v : Interval L) (tb : Timeboard L) {n : StepsValue} {m : Int} (hn : n.Is m) {duty : DutyValue} {d : Duty} (hd : duty.Plain d)
    {sv : ScheduleValue L} {so : Option (Schedule L)} (hs : sv.Means so) (o : Interval L) (num : L → Option Rat) (f : Freq) :
    v.workshiftsV tb duty sv = v.workshifts tb d so ∧ v.nthV tb n duty sv = v.nth tb m d so ∧ v.countV tb duty sv = v.count tb d so ∧
    v.overlapV tb (.interval o) sv = v.overlap tb o so ∧ v.whatPortionOfV tb (.interval o) duty sv = v.whatPortionOf tb o d so ∧
    v.totalDurationV tb duty sv = v.totalDuration tb d so ∧ v.worktimeV tb num duty sv = v.worktime tb num d so ∧
    v.countPeriodsV tb (some f) duty sv = v.countPeriods tb f d so := by
  exact ⟨v.workshiftsV_same tb hd hs, v.nthV_same tb hn hd hs, v.countV_same tb hd hs, by rw [v.overlapV_some tb hs]; rfl, v.whatPortionOfV_same tb hd hs o,
    v.totalDurationV_same tb hd hs, v.worktimeV_same tb hd hs num, v.countPeriodsV_same tb hd hs f⟩

/-- The exceptions of the methods of an interval which is not void.  A schedule which is not one: AttributeError, but TypeError when an interval is to be created.  A
duty which is none of the three strings: TypeError if it cannot be looked up in a dictionary, otherwise ValueError. -/
theorem C123_interval_errors {tb : Timeboard L} (h : tb.Reachable) {v : Interval L} (hv : tb.HasInterval v) (hnv : v.isVoid = false) (num : L → Option Rat) :
    (∀ n duty, v.workshiftsV tb duty .other = .error .attributeError ∧ v.nthV tb n duty .other = .error .attributeError ∧
      v.countV tb duty .other = .error .attributeError ∧ v.totalDurationV tb duty .other = .error .attributeError ∧
      v.worktimeV tb num duty .other = .error .attributeError) ∧
    (∀ n duty sv so, sv.Means so → (∀ d, ¬ duty.Plain d) → ∀ e, e = duty.wrong →
      v.workshiftsV tb duty sv = .error e ∧ v.nthV tb n duty sv = .error e ∧ v.countV tb duty sv = .error e ∧ v.totalDurationV tb duty sv = .error e ∧
      v.worktimeV tb num duty sv = .error e) ∧
    (∀ sv, v.overlapV tb .other sv = .error .attributeError ∧ v.overlapV tb .workshift sv = .error .typeError ∧
      ∀ duty, v.whatPortionOfV tb .other duty sv = .error .attributeError ∧ v.whatPortionOfV tb .workshift duty sv = .error .typeError) ∧
    (∀ o, tb.HasInterval o → v.overlapV tb (.interval o) .other = .error .typeError ∧ ∀ duty, v.whatPortionOfV tb (.interval o) duty .other = .error .typeError) := by
  have hsrc := h.valid.source
  refine ⟨?_, ?_, ?_, ?_⟩
  · intro n duty
    have e : v.dutyIdxV tb duty .other = .error .attributeError := rfl
    refine ⟨?_, ?_, ?_, ?_, ?_⟩
    · simp [Interval.workshiftsV, hnv, e]
    · simp [Interval.nthV, hnv, e]
    · simp [Interval.countV, hnv, e]
    · simp [Interval.totalDurationV, hnv, e]
    · rcases hsrc with x | x <;> simp [Interval.worktimeV, Interval.totalDurationV, hnv, e, x, Except.map]
  · intro n duty sv so hs hd e he
    have e' : v.dutyIdxV tb duty sv = .error e := by
      rw [v.dutyIdxV_wrong tb hd hs, he]
    refine ⟨?_, ?_, ?_, ?_, ?_⟩
    · simp [Interval.workshiftsV, hnv, e']
    · simp [Interval.nthV, hnv, e']
    · simp [Interval.countV, hnv, e']
    · simp [Interval.totalDurationV, hnv, e']
    · rcases hsrc with x | x <;> simp [Interval.worktimeV, Interval.totalDurationV, hnv, e', x, Except.map]
  · intro sv
    have e1 : v.overlapV tb .other sv = .error .attributeError := by simp [Interval.overlapV, hnv, OtherValue.get]
    have e2 : v.overlapV tb .workshift sv = .error .typeError := by simp [Interval.overlapV, hnv, OtherValue.get]
    refine ⟨e1, e2, fun duty => ⟨?_, ?_⟩⟩
    · simp [Interval.whatPortionOfV, hnv, e1]
    · simp [Interval.whatPortionOfV, hnv, e2]
  · intro o ho
    have hf := hv.fine h.valid
    obtain ⟨x, hx, _⟩ := hf.overlap_ok (ho.fine h.valid) (s := some v.schedule) (fun s hs => by cases hs; exact hf.owned)
    have e1 : v.overlapV tb (.interval o) .other = .error .typeError := by
      simp [Interval.overlapV, hnv, OtherValue.get, ScheduleValue.check, hx]
    refine ⟨e1, fun duty => ?_⟩
    simp [Interval.whatPortionOfV, hnv, e1]

theorem nth_float_up (a b : Int) (q : Rat) (hq : 0 ≤ q) : ((a : Rat) + q < (a : Rat) ∨ (a : Rat) + q > (b : Rat)) ↔ (a + q.ceil < a ∨ a + q.ceil > b) := by
  have h1 := Rat.lt_ceil_iff (x := q) (y := b - a)
  have h2 := Rat.lt_ceil_iff (x := q) (y := -1)
  rw [Rat.intCast_sub] at h1
  have e1 : ¬ (a : Rat) + q < (a : Rat) := by grind
  have e2 : (a : Rat) + q > (b : Rat) ↔ (b : Rat) - (a : Rat) < q := by grind
  have e3 : (-1 : Int) < q.ceil := h2.2 (by have : ((-1 : Int) : Rat) = -1 := rfl
                                            rw [this]; grind)
  rw [e2, ← h1]
  constructor
  · rintro (x | x)
    · exact absurd x e1
    · exact .inr (by omega)
  · rintro (x | x)
    · omega
    · exact .inr (by omega)

theorem nth_float_down (a b : Int) (q : Rat) (hq : q ≤ -1) : ((b : Rat) + q + 1 < (a : Rat) ∨ (b : Rat) + q + 1 > (b : Rat)) ↔ (b + q.floor + 1 < a ∨ b + q.floor + 1 > b) := by
  have h1 := Rat.floor_lt_iff (a := q) (x := a - b - 1)
  have h2 := Rat.floor_lt_iff (a := q) (x := 0)
  rw [Rat.intCast_sub, Rat.intCast_sub] at h1
  have e1 : ¬ (b : Rat) + q + 1 > (b : Rat) := by grind
  have hone : ((1 : Int) : Rat) = 1 := rfl
  have e2 : (b : Rat) + q + 1 < (a : Rat) ↔ q < (a : Rat) - (b : Rat) - ((1 : Int) : Rat) := by rw [hone]; grind
  have e3 : q.floor < (0 : Int) := h2.2 (by have : ((0 : Int) : Rat) = 0 := rfl
                                            rw [this]; grind)
  rw [e2, ← h1]
  constructor
  · rintro (x | x)
    · exact .inl (by omega)
    · exact absurd x e1
  · rintro (x | x)
    · exact .inl (by omega)
    · omega

/-- `nth` with a number which is not an integer never answers.  Where the interval has no workshift with the duty, this is found out first. -/
theorem C123_nth {tb : Timeboard L} (h : tb.Reachable) {v : Interval L} (hv : tb.HasInterval v) (hnv : v.isVoid = false) {duty : DutyValue} {d : Duty} (hd : duty.Plain d)
    {sv : ScheduleValue L} {so : Option (Schedule L)} (hs : sv.Means so) (hso : tb.OwnsOpt so) :
    (v.nth tb 0 d so = .error .outOfBounds → ∀ n, v.nthV tb n duty sv = .error .outOfBounds) ∧
    ((∃ w, v.nth tb 0 d so = .ok w) →
      v.nthV tb .other duty sv = .error .typeError ∧ v.nthV tb .nan duty sv = .error .indexError ∧ (∀ b, v.nthV tb (.infinite b) duty sv = .error .outOfBounds) ∧
      ∀ q, v.nthV tb (.float q) duty sv = (if -1 < q ∧ q < 0 then .error .outOfBounds
        else match v.nth tb (if 0 ≤ q then q.ceil else q.floor) d so with
          | .ok _ => .error .indexError
          | .error e => .error e)) := by
  have hvf := hv.fine h.valid
  have hp : v.Proper tb := by
    rcases hvf.shape with x | x
    · exact x
    · rw [x.void] at hnv; cases hnv
  have hown := owns_getD_fine hvf hso
  obtain ⟨hd1, hd2⟩ := DutyValue.plain_duty hd
  rcases hp.dutyIdx_spec h.valid hown hd2 with ⟨idx, e1, e2⟩ | ⟨idx, a, b, e1, ha, hab, hb, e2⟩
  · have e3 : ∀ n, v.nthV tb n duty sv = .error .outOfBounds := fun n => by
      unfold Interval.nthV; rw [v.dutyIdxV_same tb hd hs, e1, hnv]; rfl
    have e4 : v.nth tb 0 d so = .error .outOfBounds := by
      unfold Interval.nth; simp only [e1, hnv]; rfl
    refine ⟨fun _ => e3, ?_⟩
    rintro ⟨w, g⟩
    rw [e4] at g; cases g
  · have hat : ∀ i : Int, a ≤ i → i ≤ b → ∃ w, workshiftAt tb idx i (so.getD v.schedule) = .ok w := by
      intro i h1 h2
      have hm : idx[i.toNat]'(by omega) ∈ slice idx a b := by
        rw [List.mem_iff_getElem]
        refine ⟨(i - a).toNat, by simp only [slice, List.length_drop, List.length_take]; omega, ?_⟩
        simp only [slice, List.getElem_drop, List.getElem_take]
        congr 1
        omega
      rw [e2, Timeboard.mem_dutyPositions] at hm
      have hlt := hp.hi_lt
      have hl0 := hp.lo_nonneg
      obtain ⟨w', e, _⟩ := Workshift.exists_of_range h.valid (some (so.getD v.schedule)) (k := idx[i.toNat]'(by omega)) (by omega) (by omega)
      refine ⟨w', ?_⟩
      simp only [workshiftAt, pyGet?_lt idx (by omega : (0 : Int) ≤ i) (by omega)]
      exact e
    have hn : ∀ m : Int, v.nth tb m d so = (if (if m ≥ 0 then a + m else b + m + 1) < a ∨ (if m ≥ 0 then a + m else b + m + 1) > b then .error .outOfBounds
        else workshiftAt tb idx (if m ≥ 0 then a + m else b + m + 1) (so.getD v.schedule)) := by
      intro m
      unfold Interval.nth; simp only [e1, hnv]; rfl
    have hO : v.nthV tb .other duty sv = .error .typeError := by unfold Interval.nthV; rw [v.dutyIdxV_same tb hd hs, e1, hnv]; rfl
    have hN : v.nthV tb .nan duty sv = .error .indexError := by unfold Interval.nthV; rw [v.dutyIdxV_same tb hd hs, e1, hnv]; rfl
    have hI : ∀ x, v.nthV tb (.infinite x) duty sv = .error .outOfBounds := fun x => by unfold Interval.nthV; rw [v.dutyIdxV_same tb hd hs, e1, hnv]; rfl
    have hV : ∀ q : Rat, v.nthV tb (.float q) duty sv = (if (if q ≥ 0 then (a : Rat) + q else (b : Rat) + q + 1) < (a : Rat) ∨
        (if q ≥ 0 then (a : Rat) + q else (b : Rat) + q + 1) > (b : Rat) then .error .outOfBounds else .error .indexError) := fun n => by
      unfold Interval.nthV; rw [v.dutyIdxV_same tb hd hs, e1, hnv]; rfl
    constructor
    · intro g
      obtain ⟨w, e⟩ := hat (a + 0) (by omega) (by omega)
      rw [hn] at g
      simp only [ge_iff_le, Int.le_refl, if_true] at g
      rw [if_neg (by omega), e] at g
      cases g
    · intro _
      refine ⟨hO, hN, hI, fun q => ?_⟩
      rw [hV, hn]
      by_cases hq : 0 ≤ q
      · have hq' : ¬ (-1 < q ∧ q < 0) := by grind
        have hc : (0 : Int) ≤ q.ceil := by
          have h2 := Rat.lt_ceil_iff (x := q) (y := -1)
          have : (-1 : Int) < q.ceil := h2.2 (by have : ((-1 : Int) : Rat) = -1 := rfl
                                                 rw [this]; grind)
          omega
        have key := nth_float_up a b q hq
        rw [if_neg hq', if_pos hq]
        simp only [ge_iff_le, hq, hc, if_true]
        by_cases hx : (a : Rat) + q < (a : Rat) ∨ (a : Rat) + q > (b : Rat)
        · rw [if_pos hx, if_pos (key.1 hx)]
        · have hx' : ¬ (a + q.ceil < a ∨ a + q.ceil > b) := fun y => hx (key.2 y)
          rw [if_neg hx, if_neg hx']
          obtain ⟨w, e⟩ := hat (a + q.ceil) (by omega) (by omega)
          rw [e]
      · simp only [ge_iff_le, hq, if_false]
        by_cases hq2 : -1 < q
        · have c1 : -1 < q ∧ q < 0 := ⟨hq2, by grind⟩
          have c2 : (b : Rat) + q + 1 < (a : Rat) ∨ (b : Rat) + q + 1 > (b : Rat) := .inr (by grind)
          rw [if_pos c1, if_pos c2]
        · have hq3 : q ≤ -1 := by grind
          have key := nth_float_down a b q hq3
          have hf : ¬ (0 : Int) ≤ q.floor := by
            have h2 := Rat.floor_lt_iff (a := q) (x := 0)
            have : q.floor < (0 : Int) := h2.2 (by have : ((0 : Int) : Rat) = 0 := rfl
                                                   rw [this]; grind)
            omega
          have c1 : ¬ (-1 < q ∧ q < 0) := fun y => hq2 y.1
          rw [if_neg c1]
          simp only [hf, if_false]
          by_cases hx : (b : Rat) + q + 1 < (a : Rat) ∨ (b : Rat) + q + 1 > (b : Rat)
          · rw [if_pos hx, if_pos (key.1 hx)]
          · have hx' : ¬ (b + q.floor + 1 < a ∨ b + q.floor + 1 > b) := fun y => hx (key.2 y)
            rw [if_neg hx, if_neg hx']
            obtain ⟨w, e⟩ := hat (b + q.floor + 1) (by omega) (by omega)
            rw [e]

/-- A duty which is none of the three strings is not noticed by `what_portion_of` if the two intervals have nothing in common. -/
theorem C123_portion {tb : Timeboard L} (h : tb.Reachable) {v o : Interval L} (hv : tb.HasInterval v) (ho : tb.HasInterval o) (hnv : v.isVoid = false)
    {duty : DutyValue} (hd : ∀ d, ¬ duty.Plain d) {sv : ScheduleValue L} {so : Option (Schedule L)} (hs : sv.Means so) (hso : tb.OwnsOpt so) :
    ((∃ k, v.Contains tb k ∧ o.Contains tb k) → v.whatPortionOfV tb (.interval o) duty sv = .error duty.wrong) ∧
    ((∀ k, ¬ (v.Contains tb k ∧ o.Contains tb k)) → v.whatPortionOfV tb (.interval o) duty sv = .ok 0) := by
  have hvf := hv.fine h.valid
  have hof := ho.fine h.valid
  have hown := owns_getD_fine hvf hso
  obtain ⟨x, hx, xf, xs, xk, xb, _⟩ := hvf.overlap_ok hof (s := some (so.getD v.schedule)) (fun s hs' => by cases hs'; exact hown)
  have hov : v.overlapV tb (.interval o) sv = .ok x := by
    unfold Interval.overlapV
    simp only [hnv, OtherValue.get, ScheduleValue.check_means hs v.schedule, Bool.false_eq_true, if_false, hx]
  have hct : v.whatPortionOfV tb (.interval o) duty sv = (match x.countV tb duty .none with
      | .error e => .error e
      | .ok c => if c = 0 then .ok 0 else match o.countV tb duty (.schedule x.schedule) with
        | .error e => .error e
        | .ok d => pyDiv c d) := by
    simp only [Interval.whatPortionOfV, hnv, Bool.false_eq_true, if_false, hov, OtherValue.get]
    cases x.countV tb duty .none <;> rfl
  simp only [hvf.contains_iff h.valid, hof.contains_iff h.valid]
  constructor
  · rintro ⟨k, hk⟩
    have hk' := (xk k).2 hk
    have hxv : x.isVoid = false := by
      rcases xf.shape with p | p
      · exact p.not_void
      · have := p.hi_lt_lo; omega
    have : x.countV tb duty .none = .error duty.wrong := by
      unfold Interval.countV
      rw [x.dutyIdxV_wrong tb hd .none, hxv]
      rfl
    rw [hct, this]
  · intro hk
    have hxv : x.isVoid = true := by
      rcases xf.shape with p | p
      · have := p.lo_le_hi
        exact absurd ((xk x.lo).1 ⟨Int.le_refl _, this⟩) (hk _)
      · exact p.void
    rw [hct]
    simp [Interval.countV, hxv]

/-- The number of periods: a wrong period comes first, then wrong schedules, then wrong duties. -/
theorem C123_periods {tb : Timeboard L} (h : tb.Reachable) {v : Interval L} (hv : tb.HasInterval v) (hnv : v.isVoid = false) (duty : DutyValue) (sv : ScheduleValue L) :
    v.countPeriodsV tb none duty sv = .error .unacceptablePeriod ∧
    (∀ f, f ∉ countable → v.countPeriodsV tb (some f) duty sv = .error .unacceptablePeriod) ∧
    ∀ f, f ∈ countable → v.countPeriodsV tb (some f) duty .other = .error .attributeError ∧
      ((∀ d, ¬ duty.Plain d) → (∃ so, sv.Means so) → v.countPeriodsV tb (some f) duty sv = .error duty.wrong) := by
  have hvl := h.valid
  have hp : v.Proper tb := by
    rcases (hv.fine hvl).shape with x | x
    · exact x
    · rw [x.void] at hnv; cases hnv
  refine ⟨by simp [Interval.countPeriodsV, hnv], fun f hf => ?_, fun f hf => ?_⟩
  · rw [← supportedPeriod_iff, Bool.not_eq_true] at hf
    simp [Interval.countPeriodsV, hnv, hf]
  · rw [← supportedPeriod_iff] at hf
    have hm := supportedPeriod_mult hf
    have hlo := hp.lo_nonneg
    have hhi := hp.hi_lt
    have hlohi := hp.lo_le_hi
    have ha : v.startTime tb = .ok (some (tb.timeline.frame.unitStart (tb.timeline.bnd v.lo))) := by
      unfold Interval.startTime
      rw [hp.not_void, hvl.wf.wsStart_eq hlo (by omega)]; rfl
    have hb : v.endTime tb = .ok (some (tb.timeline.frame.unitStart (tb.timeline.bnd (v.hi + 1)) - 1)) := by
      unfold Interval.endTime
      rw [hp.not_void, hvl.wf.wsEnd_eq (by omega) hhi]; rfl
    have hab : tb.timeline.frame.unitStart (tb.timeline.bnd v.lo) ≤ tb.timeline.frame.unitStart (tb.timeline.bnd (v.hi + 1)) - 1 := by
      have := Frame.unitStart_lt_iff (f := tb.timeline.frame).2 (hvl.wf.bnd_lt_bnd hlo (by omega : v.lo < v.hi + 1) (by omega))
      omega
    obtain ⟨F, hF, _⟩ := Timeboard.Valid.periodIndex hm hab
    have key : ∀ sv e, e ≠ Err.outOfBounds → (∀ n, v.nthV tb n duty sv = .error e) → v.countPeriodsV tb (some f) duty sv = .error e := by
      intro sv e he hn
      unfold Interval.countPeriodsV
      simp only [hnv, hf, ha, hb, hF, timeOrTypeError, Bool.false_eq_true, if_false, Bool.not_true, Bind.bind, Except.bind, hn]
      cases e <;> first | rfl | exact absurd rfl he
    have herr := C123_interval_errors h hv hnv (fun _ => none)
    refine ⟨key _ _ (by decide) fun n => (herr.1 n duty).2.1, fun hd ⟨so, hs⟩ => ?_⟩
    exact key _ _ (by cases duty <;> simp [DutyValue.wrong]) fun n => (herr.2.1 n duty sv so hs hd _ rfl).2.1

/-- A void interval answers without looking at its arguments; only `overlap` looks, at the schedule. -/
theorem C123_void {tb : Timeboard L} {v : Interval L} (hv : v.isVoid = true) (num : L → Option Rat) (n : StepsValue) (freq : Option Freq) (duty : DutyValue)
    (sv : ScheduleValue L) (other : OtherValue L) :
    v.workshiftsV tb duty sv = .ok [] ∧ v.nthV tb n duty sv = .error .outOfBounds ∧ v.countV tb duty sv = .ok 0 ∧ v.whatPortionOfV tb other duty sv = .ok 0 ∧
    v.totalDurationV tb duty sv = .ok 0 ∧ v.worktimeV tb num duty sv = .ok 0 ∧ v.countPeriodsV tb freq duty sv = .ok 0 ∧
    v.overlapV tb other .other = .error .typeError ∧ ∀ so, sv.Means so → v.overlapV tb other sv = v.overlap tb v so := by
  refine ⟨?_, ?_, ?_, ?_, ?_, ?_, ?_, ?_, ?_⟩
  · simp [Interval.workshiftsV, hv]
  · simp [Interval.nthV, hv]
  · simp [Interval.countV, hv]
  · simp [Interval.whatPortionOfV, hv]
  · simp [Interval.totalDurationV, hv]
  · simp [Interval.worktimeV, hv]
  · simp [Interval.countPeriodsV, hv]
  · simp [Interval.overlapV, hv, ScheduleValue.check]
  · intro so hs
    simp [Interval.overlapV, Interval.overlap, hv, ScheduleValue.check_means hs]

/-- The other methods of workshifts: AttributeError for a schedule which is not one, and `worktime` refuses all duties but the three strings. -/
theorem C123_workshift_errors {tb : Timeboard L} (h : tb.Reachable) {k : Int} (h0 : 0 ≤ k) (h1 : k < tb.timeline.len) {sch : Option (Schedule L)} {w : Workshift L}
    (hw : Workshift.new tb k sch = .ok w) (num : L → Option Rat) (duty : DutyValue) :
    w.isOnDutyV tb .other = .error .attributeError ∧ w.isOffDutyV tb .other = .error .attributeError ∧ w.worktimeV tb num duty .other = .error .attributeError ∧
    ((∀ d, ¬ duty.Plain d) → ∀ sv so, sv.Means so → w.worktimeV tb num duty sv = .error duty.wrong) := by
  refine ⟨rfl, rfl, rfl, ?_⟩
  intro hd sv so hs
  obtain ⟨hl, _⟩ := Workshift.label_loc h.valid h0 h1 hw
  simp only [Workshift.worktimeV, ScheduleValue.get_means hs w.schedule]
  cases duty with
  | unhashable => simp only [Workshift.isOnDuty_eq hl, Workshift.isOffDuty_eq hl]; rfl
  | hashable => simp only [Workshift.worktime, Workshift.isOnDuty_eq hl, Workshift.isOffDuty_eq hl, DutyValue.duty]; rfl
  | word x =>
    simp only [Workshift.worktime, Workshift.isOnDuty_eq hl, Workshift.isOffDuty_eq hl, DutyValue.wrong]
    rcases DutyValue.not_plain hd with e | e | e <;> rw [e] <;> rfl

/-! ### Examples -/

/-- A workshift of the example board and what rolling it gives. -/
def exRollValue (steps : StepsValue) (duty : DutyValue) (sv : ScheduleValue Int) : Except Err Int :=
  match Workshift.new Ex.week 3 none with
  | .error e => .error e
  | .ok w => (w.rollforwardV Ex.week steps duty sv).map (fun x => x.loc)

def exNthValue (n : StepsValue) (duty : DutyValue) : Except Err Int :=
  match Interval.new Ex.week (2, 8) none with
  | .error e => .error e
  | .ok v => (v.nthV Ex.week n duty .none).map (fun x => x.loc)

-- `ws.rollforward(True)`, with 'same', with a wrong word, with a wrong schedule, with None, with 1.5, with 100.5, with NaN, with infinity.
example : exRollValue (.bool true) (.word "on") .none = .ok 4 := by decide +kernel
example : exRollValue (.int 2) (.word "any") .none = .ok 5 := by decide +kernel
example : exRollValue (.int 2) (.word "On") .none = .error .valueError := by decide +kernel
example : exRollValue (.int 2) .unhashable .none = .error .valueError := by decide +kernel
example : exRollValue .nan .hashable .other = .error .attributeError := by decide +kernel
example : exRollValue .other (.word "on") .none = .error .typeError := by decide +kernel
example : exRollValue .nan (.word "on") .none = .error .indexError := by decide +kernel
#guard exRollValue (.float (3/2)) (.word "on") .none = .error .indexError
#guard exRollValue (.float (201/2)) (.word "on") .none = .error .outOfBounds
#guard exRollValue (.float (-7/2)) (.word "any") .none = .error .outOfBounds
example : exNthValue (.bool true) (.word "any") = .ok 3 := by decide +kernel
example : exNthValue (.int (-1)) (.word "any") = .ok 8 := by decide +kernel
example : exNthValue (.int 0) (.word "same") = .error .valueError := by decide +kernel
example : exNthValue (.int 0) .unhashable = .error .typeError := by decide +kernel
#guard exNthValue (.float 6) (.word "any") = .error .indexError
#guard exNthValue (.float (13/2)) (.word "any") = .error .outOfBounds
#guard exNthValue (.float (-1/2)) (.word "any") = .error .outOfBounds
#guard exNthValue (.float (-1)) (.word "any") = .error .indexError

/-- A duty which does not exist is noticed by `count`, `what_portion_of` of an interval with workshifts in common, and not by `what_portion_of` of another one: two
intervals of the same timeboard, the same call, an exception for the one and zero for the other. -/
theorem C123_unnoticed : ∃ (v o o' : Interval Int), Ex.week.HasInterval v ∧ Ex.week.HasInterval o ∧ Ex.week.HasInterval o' ∧ v.isVoid = false ∧
    v.countV Ex.week (.word "ON") .none = .error .valueError ∧ v.whatPortionOfV Ex.week (.interval o) (.word "ON") .none = .error .valueError ∧
    v.whatPortionOfV Ex.week (.interval o') (.word "ON") .none = .ok 0 := by
  refine ⟨⟨2, 8, 7, false, Ex.week.defaultSchedule⟩, ⟨1, 3, 3, false, Ex.week.defaultSchedule⟩, ⟨9, 10, 2, false, Ex.week.defaultSchedule⟩,
    .new (a := 2) (b := 8) (s := none) (fun _ h => by cases h) ?_, .new (a := 1) (b := 3) (s := none) (fun _ h => by cases h) ?_,
    .new (a := 9) (b := 10) (s := none) (fun _ h => by cases h) ?_, rfl, rfl, ?_, ?_⟩
  · exact Interval.new_ok_iff.2 ⟨by decide, by decide, by decide +kernel, rfl⟩
  · exact Interval.new_ok_iff.2 ⟨by decide, by decide, by decide +kernel, rfl⟩
  · exact Interval.new_ok_iff.2 ⟨by decide, by decide, by decide +kernel, rfl⟩
  · decide +kernel
  · decide +kernel

end TB
