import Verif.Lemmas.Roll
import Verif.Props.Duty
/-! Properties C19, C20, C21, C22, C60: rolling. -/
namespace TB
open TB.Ex
variable {L : Type}

/-- The schedule used when rolling a workshift of the timeboard is a schedule of the timeboard. -/
theorem owns_roll {tb : Timeboard L} (hv : tb.Valid) {k : Int} {sw sch : Option (Schedule L)} {w : Workshift L}
    (hw : Workshift.new tb k sw = .ok w) (h0 : tb.OwnsOpt sw) (h1 : tb.OwnsOpt sch) : tb.Owns (sch.getD w.schedule) := by
  rw [Workshift.new_schedule hw]
  cases sch with
  | none => exact hv.effective_owned h0
  | some x => exact h1 x rfl

theorem allPositions_range {tb : Timeboard L} {sel : L → Bool} {d : Duty} : ∀ t ∈ tb.allPositions sel d, 0 ≤ t ∧ t < tb.timeline.len := by
  intro t ht
  have := Timeboard.mem_dutyPositions.1 ht
  omega

/-- **C19.** `rollforward(steps, duty)` for `duty` 'on', 'off' or 'any': the result is the workshift reached from the zero step
workshift (the earliest one at or after `w` which has the duty) by `steps` signed steps over workshifts with the duty.
If there is no zero step workshift or no such target, OutOfBoundsError is raised; there are no other outcomes. -/
theorem C19_rollforward {tb : Timeboard L} (h : tb.Reachable) {k : Int} {sw sch : Option (Schedule L)} {w : Workshift L}
    (hk : 0 ≤ k ∧ k < tb.timeline.len) (hw : Workshift.new tb k sw = .ok w) (h0 : tb.OwnsOpt sw) (h1 : tb.OwnsOpt sch) (n : Int)
    {d : Duty} (hd : d = .on ∨ d = .off ∨ d = .any) :
    (∀ w', w.rollforward tb n d sch = .ok w' ↔ ∃ k0 t, tb.ZeroForward (sch.getD w.schedule) d k k0 ∧
      tb.StepsTo (sch.getD w.schedule) d k0 t n ∧ Workshift.new tb t (some (sch.getD w.schedule)) = .ok w') ∧
    (∀ e, w.rollforward tb n d sch = .error e ↔ (e = .outOfBounds ∧ ¬ ∃ k0 t, tb.ZeroForward (sch.getD w.schedule) d k k0 ∧
      tb.StepsTo (sch.getD w.schedule) d k0 t n)) := by
  have hv := h.valid
  have ho := owns_roll hv hw h0 h1
  have hl := Workshift.new_label hw
  have hloc := Workshift.new_loc hw
  subst hloc
  have hs : (tb.allPositions (sch.getD w.schedule).selector d).Pairwise (· < ·) := tb.pairwise_dutyPositions _ _ _ _
  have hr := allPositions_range (tb := tb) (sel := (sch.getD w.schedule).selector) (d := d)
  rw [Workshift.rollforward_eq (Workshift.dutyIndex_eq hv hl ho hd)]
  simp only [hv.zeroForward_iff, hv.stepsTo_iff]
  generalize tb.allPositions (sch.getD w.schedule).selector d = P at *
  have hle := ssLeft_le P w.loc
  have hnn := ssLeft_nonneg P w.loc
  have hzero : ∀ k0, (k0 ∈ P ∧ ssLeft P k0 = ssLeft P w.loc ∧ w.loc ≤ k0) → ssLeft P w.loc ≠ P.length := by
    rintro k0 ⟨a, b, c⟩ hc
    obtain ⟨i, hi, rfl⟩ := List.mem_iff_getElem.1 a
    rw [ssLeft_getElem hs hi] at b
    omega
  by_cases hz : ssLeft P w.loc = P.length
  · rw [if_pos hz]
    constructor
    · intro w'
      constructor
      · intro h; cases h
      · rintro ⟨k0, t, a, _⟩; exact absurd hz (hzero k0 a)
    · intro e
      constructor
      · intro h; cases h
        refine ⟨rfl, ?_⟩
        rintro ⟨k0, t, a, _⟩; exact absurd hz (hzero k0 a)
      · rintro ⟨rfl, _⟩; rfl
  · rw [if_neg hz]
    have hex : ∃ k0, k0 ∈ P ∧ ssLeft P k0 = ssLeft P w.loc ∧ w.loc ≤ k0 := by
      refine ⟨P[(ssLeft P w.loc).toNat]'(by omega), List.getElem_mem _, by rw [ssLeft_getElem hs]; omega, ?_⟩
      have := getElem_lt_iff (pairwise_le_of_lt hs) w.loc (ssLeft P w.loc).toNat (by omega)
      omega
    constructor
    · intro w'
      rw [pick_ok_iff hs]
      constructor
      · rintro ⟨t, a, b, c⟩
        obtain ⟨k0, hk0⟩ := hex
        exact ⟨k0, t, hk0, ⟨a, by omega⟩, c⟩
      · rintro ⟨k0, t, a, b, c⟩
        exact ⟨t, b.1, by omega, c⟩
    · intro e
      rw [pick_error_iff hv hs hr]
      constructor
      · rintro ⟨a, b⟩
        refine ⟨a, ?_⟩
        rintro ⟨k0, t, c, e1, e2⟩
        exact b ⟨t, e1, by omega⟩
      · rintro ⟨a, b⟩
        refine ⟨a, ?_⟩
        rintro ⟨t, e1, e2⟩
        obtain ⟨k0, hk0⟩ := hex
        exact b ⟨k0, t, hk0, e1, by omega⟩

/-- Rolling in the example. -/
def exRoll (k n : Int) (d : Duty) (forward : Bool) : Except Err Int := do
  let w ← Workshift.new week k
  (if forward then w.rollforward week n d else w.rollback week n d).map (fun w => w.loc)
example : exRoll 5 2 .on true = .ok 8 ∧ exRoll 6 0 .on true = .ok 7 ∧ exRoll 6 2 .on true = .ok 9 ∧ exRoll 6 (-2) .on true = .ok 4 ∧
    exRoll 6 0 .off true = .ok 6 ∧ exRoll 29 5 .on true = .error .outOfBounds ∧ exRoll 29 0 .off true = .error .outOfBounds := by decide +kernel

/-- **C20.** `rollback(steps, duty)` for `duty` 'on', 'off' or 'any': as `rollforward`, but the zero step workshift is the latest
one at or before `w`, and positive steps go to the past. -/
theorem C20_rollback {tb : Timeboard L} (h : tb.Reachable) {k : Int} {sw sch : Option (Schedule L)} {w : Workshift L}
    (hk : 0 ≤ k ∧ k < tb.timeline.len) (hw : Workshift.new tb k sw = .ok w) (h0 : tb.OwnsOpt sw) (h1 : tb.OwnsOpt sch) (n : Int)
    {d : Duty} (hd : d = .on ∨ d = .off ∨ d = .any) :
    (∀ w', w.rollback tb n d sch = .ok w' ↔ ∃ k0 t, tb.ZeroBack (sch.getD w.schedule) d k k0 ∧
      tb.StepsTo (sch.getD w.schedule) d k0 t (-n) ∧ Workshift.new tb t (some (sch.getD w.schedule)) = .ok w') ∧
    (∀ e, w.rollback tb n d sch = .error e ↔ (e = .outOfBounds ∧ ¬ ∃ k0 t, tb.ZeroBack (sch.getD w.schedule) d k k0 ∧
      tb.StepsTo (sch.getD w.schedule) d k0 t (-n))) := by
  have hv := h.valid
  have ho := owns_roll hv hw h0 h1
  have hl := Workshift.new_label hw
  have hloc := Workshift.new_loc hw
  subst hloc
  have hs : (tb.allPositions (sch.getD w.schedule).selector d).Pairwise (· < ·) := tb.pairwise_dutyPositions _ _ _ _
  have hr := allPositions_range (tb := tb) (sel := (sch.getD w.schedule).selector) (d := d)
  rw [Workshift.rollback_eq (Workshift.dutyIndex_eq hv hl ho hd) hs]
  simp only [hv.zeroBack_iff, hv.stepsTo_iff]
  generalize tb.allPositions (sch.getD w.schedule).selector d = P at *
  have hle := ssLeft_le P (w.loc + 1)
  have hnn := ssLeft_nonneg P (w.loc + 1)
  have hzero : ∀ k0, (k0 ∈ P ∧ ssLeft P k0 = ssLeft P (w.loc + 1) - 1 ∧ k0 ≤ w.loc) → ssLeft P (w.loc + 1) ≠ 0 := by
    rintro k0 ⟨a, b, c⟩ hc
    have := ssLeft_nonneg P k0
    omega
  by_cases hz : ssLeft P (w.loc + 1) = 0
  · rw [if_pos hz]
    constructor
    · intro w'
      constructor
      · intro h; cases h
      · rintro ⟨k0, t, a, _⟩; exact absurd hz (hzero k0 a)
    · intro e
      constructor
      · intro h; cases h
        refine ⟨rfl, ?_⟩
        rintro ⟨k0, t, a, _⟩; exact absurd hz (hzero k0 a)
      · rintro ⟨rfl, _⟩; rfl
  · rw [if_neg hz]
    have hex : ∃ k0, k0 ∈ P ∧ ssLeft P k0 = ssLeft P (w.loc + 1) - 1 ∧ k0 ≤ w.loc := by
      refine ⟨P[(ssLeft P (w.loc + 1) - 1).toNat]'(by omega), List.getElem_mem _, by rw [ssLeft_getElem hs]; omega, ?_⟩
      have := getElem_lt_iff (pairwise_le_of_lt hs) (w.loc + 1) (ssLeft P (w.loc + 1) - 1).toNat (by omega)
      omega
    constructor
    · intro w'
      rw [pick_ok_iff hs]
      constructor
      · rintro ⟨t, a, b, c⟩
        obtain ⟨k0, hk0⟩ := hex
        exact ⟨k0, t, hk0, ⟨a, by omega⟩, c⟩
      · rintro ⟨k0, t, a, b, c⟩
        exact ⟨t, b.1, by omega, c⟩
    · intro e
      rw [pick_error_iff hv hs hr]
      constructor
      · rintro ⟨a, b⟩
        refine ⟨a, ?_⟩
        rintro ⟨k0, t, c, e1, e2⟩
        exact b ⟨t, e1, by omega⟩
      · rintro ⟨a, b⟩
        refine ⟨a, ?_⟩
        rintro ⟨t, e1, e2⟩
        obtain ⟨k0, hk0⟩ := hex
        exact b ⟨k0, t, hk0, e1, by omega⟩

example : exRoll 8 2 .on false = .ok 5 ∧ exRoll 6 0 .on false = .ok 5 ∧ exRoll 6 2 .on false = .ok 3 ∧ exRoll 6 (-2) .on false = .ok 8 ∧
    exRoll 1 0 .on false = .error .outOfBounds ∧ exRoll 8 6 .on false = .error .outOfBounds := by decide +kernel

/-- **C60.** The values 'same' and 'alt' of `duty` mean the duty of the workshift itself and the opposite one; zero steps with
'same' or 'any' lead back to the workshift; values out of the list raise ValueError. -/
theorem C60_duty_values {tb : Timeboard L} (h : tb.Reachable) {k : Int} {sw sch : Option (Schedule L)} {w : Workshift L}
    (hk : 0 ≤ k ∧ k < tb.timeline.len) (hw : Workshift.new tb k sw = .ok w) (h0 : tb.OwnsOpt sw) (h1 : tb.OwnsOpt sch) (n : Int) :
    (w.isOnDuty tb sch = .ok true →
      w.rollforward tb n .same sch = w.rollforward tb n .on sch ∧ w.rollback tb n .same sch = w.rollback tb n .on sch ∧
      w.rollforward tb n .alt sch = w.rollforward tb n .off sch ∧ w.rollback tb n .alt sch = w.rollback tb n .off sch) ∧
    (w.isOffDuty tb sch = .ok true →
      w.rollforward tb n .same sch = w.rollforward tb n .off sch ∧ w.rollback tb n .same sch = w.rollback tb n .off sch ∧
      w.rollforward tb n .alt sch = w.rollforward tb n .on sch ∧ w.rollback tb n .alt sch = w.rollback tb n .on sch) ∧
    (∀ d, d = .same ∨ d = .any → ∃ w', Workshift.new tb k (some (sch.getD w.schedule)) = .ok w' ∧
      w.rollforward tb 0 d sch = .ok w' ∧ w.rollback tb 0 d sch = .ok w' ∧ (sch = none → w' = w)) ∧
    w.rollforward tb n .other sch = .error .valueError ∧ w.rollback tb n .other sch = .error .valueError := by
  have hv := h.valid
  have ho := owns_roll hv hw h0 h1
  have hl := Workshift.new_label hw
  have hloc := Workshift.new_loc hw
  subst hloc
  refine ⟨?_, ?_, ?_, ?_, ?_⟩
  · intro hon
    rw [Workshift.isOnDuty_eq hl] at hon
    simp only [Except.ok.injEq] at hon
    unfold Workshift.rollforward Workshift.rollback
    simp only [Workshift.dutyIndex_same hl, Workshift.dutyIndex_alt hl, hon, if_true, and_self]
  · intro hoff
    rw [Workshift.isOffDuty_eq hl] at hoff
    simp only [Except.ok.injEq] at hoff
    have hoff : (sch.getD w.schedule).selector w.label = false := by simpa using hoff
    unfold Workshift.rollforward Workshift.rollback
    simp only [Workshift.dutyIndex_same hl, Workshift.dutyIndex_alt hl, hoff, Bool.false_eq_true, if_false, and_self]
  · intro d hd
    obtain ⟨w', hw', _⟩ := Workshift.exists_of_range hv (some (sch.getD w.schedule)) hk.1 hk.2
    refine ⟨w', hw', ?_⟩
    have key : ∀ d', (d' = .on ∨ d' = .off ∨ d' = .any) → w.loc ∈ tb.allPositions (sch.getD w.schedule).selector d' →
        w.rollforward tb 0 d' sch = .ok w' ∧ w.rollback tb 0 d' sch = .ok w' := by
      intro d' hd' hm
      have hs : (tb.allPositions (sch.getD w.schedule).selector d').Pairwise (· < ·) := tb.pairwise_dutyPositions _ _ _ _
      have hi := Workshift.dutyIndex_eq hv hl ho hd'
      rw [Workshift.rollforward_eq hi, Workshift.rollback_eq hi hs]
      have e := ssLeft_succ_of_mem hs hm
      have hnn := ssLeft_nonneg (tb.allPositions (sch.getD w.schedule).selector d') w.loc
      have hlt := ssLeft_le (tb.allPositions (sch.getD w.schedule).selector d') (w.loc + 1)
      rw [if_neg (by omega), if_neg (by omega), pick_ok_iff hs, pick_ok_iff hs]
      exact ⟨⟨w.loc, hm, by omega, hw'⟩, ⟨w.loc, hm, by omega, hw'⟩⟩
    have hsame : sch = none → w' = w := by
      intro hn
      subst hn
      have : Workshift.new tb w.loc (some w.schedule) = .ok w := by
        unfold Workshift.new; rw [hl]; rfl
      simp only [Option.getD_none] at hw'
      exact Workshift.ext_new hw' this
    have hAt : ∀ d', dutyMatches d' (sch.getD w.schedule).selector w.label = true → w.loc ∈ tb.allPositions (sch.getD w.schedule).selector d' := by
      intro d' hm
      rw [Timeboard.mem_dutyPositions]
      exact ⟨hk.1, by omega, _, hl, hm⟩
    rcases hd with rfl | rfl
    · cases hsel : (sch.getD w.schedule).selector w.label with
      | true =>
        have := key .on (.inl rfl) (hAt _ hsel)
        refine ⟨?_, ?_, hsame⟩
        · rw [← this.1]; unfold Workshift.rollforward
          simp only [Workshift.dutyIndex_same hl, hsel, if_true]
        · rw [← this.2]; unfold Workshift.rollback
          simp only [Workshift.dutyIndex_same hl, hsel, if_true]
      | false =>
        have := key .off (.inr (.inl rfl)) (hAt _ (by simp [dutyMatches, hsel]))
        refine ⟨?_, ?_, hsame⟩
        · rw [← this.1]; unfold Workshift.rollforward
          simp only [Workshift.dutyIndex_same hl, hsel, Bool.false_eq_true, if_false]
        · rw [← this.2]; unfold Workshift.rollback
          simp only [Workshift.dutyIndex_same hl, hsel, Bool.false_eq_true, if_false]
    · have := key .any (.inr (.inr rfl)) (hAt _ rfl)
      exact ⟨this.1, this.2, hsame⟩
  · unfold Workshift.rollforward
    simp only [Workshift.dutyIndex_other hl, bind, Except.bind]
  · unfold Workshift.rollback
    simp only [Workshift.dutyIndex_other hl, bind, Except.bind]

example : exRoll 6 0 .same true = .ok 6 ∧ exRoll 6 1 .same true = .ok 13 ∧ exRoll 6 1 .alt true = .ok 8 ∧ exRoll 8 0 .alt false = .ok 6 ∧
    exRoll 6 3 .any true = .ok 9 ∧ exRoll 6 3 .other true = .error .valueError := by decide +kernel

/-- **C21.** If the workshift has the duty then `rollforward(n)` and `rollback(-n)` have the same outcome; rolling by `a` and then
by `b` is rolling by `a + b`; rolling back undoes rolling forward up to the zero step workshift. -/
theorem C21_rolling_composes {tb : Timeboard L} (h : tb.Reachable) {k : Int} {sw sch : Option (Schedule L)} {w : Workshift L}
    (hk : 0 ≤ k ∧ k < tb.timeline.len) (hw : Workshift.new tb k sw = .ok w) (h0 : tb.OwnsOpt sw) (h1 : tb.OwnsOpt sch)
    {d : Duty} (hd : d = .on ∨ d = .off ∨ d = .any) :
    (w.HasDuty tb (sch.getD w.schedule) d → ∀ n, w.rollforward tb n d sch = w.rollback tb (-n) d sch) ∧
    (∀ a w1, w.rollforward tb a d sch = .ok w1 →
      (∀ b, w1.rollforward tb b d = w.rollforward tb (a + b) d sch) ∧ w1.rollback tb a d = w.rollforward tb 0 d sch ∧
      (w.HasDuty tb (sch.getD w.schedule) d → ∃ w0, w1.rollback tb a d = .ok w0 ∧ w0.loc = w.loc)) ∧
    (∀ a w1, w.rollback tb a d sch = .ok w1 →
      (∀ b, w1.rollback tb b d = w.rollback tb (a + b) d sch) ∧ w1.rollforward tb a d = w.rollback tb 0 d sch) := by
  have hv := h.valid
  have ho := owns_roll hv hw h0 h1
  have hl := Workshift.new_label hw
  have hloc := Workshift.new_loc hw
  subst hloc
  have hs : (tb.allPositions (sch.getD w.schedule).selector d).Pairwise (· < ·) := tb.pairwise_dutyPositions _ _ _ _
  have hr := allPositions_range (tb := tb) (sel := (sch.getD w.schedule).selector) (d := d)
  have hi := Workshift.dutyIndex_eq hv hl ho hd
  have hF : ∀ n, w.rollforward tb n d sch = _ := fun n => Workshift.rollforward_eq hi n
  have hB : ∀ n, w.rollback tb n d sch = _ := fun n => Workshift.rollback_eq hi hs n
  have hduty : w.HasDuty tb (sch.getD w.schedule) d → w.loc ∈ tb.allPositions (sch.getD w.schedule).selector d := by
    intro hh
    rw [Workshift.hasDuty_iff hl] at hh
    rw [Timeboard.mem_dutyPositions]
    exact ⟨hk.1, by omega, _, hl, hh⟩
  -- the workshift reached
  have hreach : ∀ w1 t, Workshift.new tb t (some (sch.getD w.schedule)) = .ok w1 →
      (∀ n, w1.rollforward tb n d = if ssLeft (tb.allPositions (sch.getD w.schedule).selector d) t = (tb.allPositions (sch.getD w.schedule).selector d).length
          then .error .outOfBounds else pick tb (tb.allPositions (sch.getD w.schedule).selector d) (ssLeft (tb.allPositions (sch.getD w.schedule).selector d) t + n) (sch.getD w.schedule)) ∧
      (∀ n, w1.rollback tb n d = if ssLeft (tb.allPositions (sch.getD w.schedule).selector d) (t + 1) = 0
          then .error .outOfBounds else pick tb (tb.allPositions (sch.getD w.schedule).selector d) (ssLeft (tb.allPositions (sch.getD w.schedule).selector d) (t + 1) - 1 - n) (sch.getD w.schedule)) := by
    intro w1 t hw1
    have hl1 := Workshift.new_label hw1
    have hloc1 := Workshift.new_loc hw1
    have hsc1 : w1.schedule = sch.getD w.schedule := Workshift.new_schedule hw1
    have hi1 : w1.dutyIndex tb d ((none : Option (Schedule L)).getD w1.schedule) = .ok (tb.allPositions (sch.getD w.schedule).selector d) := by
      simp only [Option.getD_none, hsc1]
      exact Workshift.dutyIndex_eq hv (by rw [hloc1]; exact hl1) ho hd
    constructor
    · intro n
      rw [Workshift.rollforward_eq hi1, hloc1]
      simp only [Option.getD_none, hsc1]
    · intro n
      rw [Workshift.rollback_eq hi1 hs, hloc1]
      simp only [Option.getD_none, hsc1]
  generalize tb.allPositions (sch.getD w.schedule).selector d = P at *
  have hnn := ssLeft_nonneg P w.loc
  have hle := ssLeft_le P w.loc
  have hle1 := ssLeft_le P (w.loc + 1)
  have hnn1 := ssLeft_nonneg P (w.loc + 1)
  refine ⟨?_, ?_, ?_⟩
  · intro hh n
    have e := ssLeft_succ_of_mem hs (hduty hh)
    rw [hF, hB, if_neg (by omega), if_neg (by omega)]
    congr 1; omega
  · intro a w1 hw1
    rw [hF] at hw1
    split at hw1
    · cases hw1
    rename_i hz
    obtain ⟨t, ht, hta, hw1⟩ := (pick_ok_iff hs).1 hw1
    obtain ⟨r1, r2⟩ := hreach w1 t hw1
    have e := ssLeft_succ_of_mem hs ht
    have hlt := ssLeft_le P (t + 1)
    have hnt := ssLeft_nonneg P t
    have hback : w1.rollback tb a d = w.rollforward tb 0 d sch := by
      rw [r2, hF, if_neg (by omega), if_neg hz]
      congr 1; omega
    refine ⟨?_, hback, ?_⟩
    · intro b
      rw [r1, hF, if_neg (by omega), if_neg hz]
      congr 1; omega
    · intro hh
      rw [hback, hF, if_neg hz]
      obtain ⟨w0, hw0, hloc0, _⟩ := Workshift.exists_of_range hv (some (sch.getD w.schedule)) hk.1 hk.2
      exact ⟨w0, (pick_ok_iff hs).2 ⟨w.loc, hduty hh, by omega, hw0⟩, hloc0⟩
  · intro a w1 hw1
    rw [hB] at hw1
    split at hw1
    · cases hw1
    rename_i hz
    obtain ⟨t, ht, hta, hw1⟩ := (pick_ok_iff hs).1 hw1
    obtain ⟨r1, r2⟩ := hreach w1 t hw1
    have e := ssLeft_succ_of_mem hs ht
    have hlt := ssLeft_le P (t + 1)
    have hnt := ssLeft_nonneg P t
    refine ⟨?_, ?_⟩
    · intro b
      rw [r2, hB, if_neg (by omega), if_neg hz]
      congr 1; omega
    · rw [r1, hB, if_neg (by omega), if_neg hz]
      congr 1; omega

/-- Rolling twice in the example; the second time back if `back`. -/
def exRoll2 (k a b : Int) (d : Duty) (back : Bool) : Except Err Int := do
  let w ← Workshift.new week k
  let w1 ← w.rollforward week a d
  (if back then w1.rollback week b d else w1.rollforward week b d).map (fun w => w.loc)
example : exRoll2 6 2 3 .on false = exRoll 6 5 .on true ∧ exRoll2 6 2 2 .on true = .ok 7 ∧ exRoll 5 3 .on true = exRoll 5 (-3) .on false ∧
    exRoll 5 3 .on true = .ok 9 := by
  decide +kernel

/-- **C22.** The operators `+` and `-` are rolling on duty; for an on-duty workshift `(ws + n) - n = ws`, and the interval from
`ws` to `ws + n` has `n + 1` workshifts on duty. -/
theorem C22_plus_and_minus {tb : Timeboard L} (h : tb.Reachable) {k : Int} {sw : Option (Schedule L)} {w : Workshift L}
    (hk : 0 ≤ k ∧ k < tb.timeline.len) (hw : Workshift.new tb k sw = .ok w) (h0 : tb.OwnsOpt sw) (n : Int) :
    w.add tb n = w.rollforward tb n .on ∧ w.sub tb n = w.rollback tb n .on ∧
    (w.isOnDuty tb = .ok true → ∀ w1, w.add tb n = .ok w1 →
      w1.sub tb n = .ok w ∧
      (0 ≤ n → ∃ v, Interval.new tb (w.loc, w1.loc) (some w.schedule) = .ok v ∧ v.count tb .on = .ok (n + 1))) := by
  refine ⟨rfl, rfl, ?_⟩
  intro hon w1 hadd
  have hv := h.valid
  have hn : tb.OwnsOpt (none : Option (Schedule L)) := by intro x hx; cases hx
  have hl := Workshift.new_label hw
  have hloc := Workshift.new_loc hw
  have hduty : w.HasDuty tb ((none : Option (Schedule L)).getD w.schedule) .on := by
    simp only [Option.getD_none, Workshift.HasDuty]
    exact hon
  obtain ⟨_, c2, _⟩ := C21_rolling_composes h hk hw h0 hn (d := .on) (.inl rfl)
  obtain ⟨_, e2, e3⟩ := c2 n w1 hadd
  constructor
  · obtain ⟨w0, hw0, hl0⟩ := e3 hduty
    have := (C60_duty_values h hk hw h0 hn 0).2.2.1 .same (.inl rfl)
    obtain ⟨w2, _, e5, _, e6⟩ := this
    have hsame := ((C60_duty_values h hk hw h0 hn 0).1 hon).1
    show w1.rollback tb n .on = _
    rw [e2, ← hsame, e5, e6 rfl]
  · intro hnn
    obtain ⟨k0, t, hz, hst, hw1⟩ := ((C19_rollforward h hk hw h0 hn n (d := .on) (.inl rfl)).1 w1).1 hadd
    simp only [Option.getD_none] at hz hst hw1
    have hl1 := Workshift.new_loc hw1
    have hz' := hv.zeroForward_iff.1 hz
    have hst' := hv.stepsTo_iff.1 hst
    have hs : (tb.allPositions w.schedule.selector .on).Pairwise (· < ·) := tb.pairwise_dutyPositions _ _ _ _
    have hr := allPositions_range (tb := tb) (sel := w.schedule.selector) (d := .on)
    have hmem : w.loc ∈ tb.allPositions w.schedule.selector .on := by
      rw [Timeboard.mem_dutyPositions]
      rw [Workshift.isOnDuty_eq (by rw [hloc]; exact hl)] at hon
      exact ⟨by omega, by omega, _, by rw [hloc]; exact hl, by simpa [dutyMatches] using hon⟩
    rw [hloc] at hmem
    have hkk : k0 = k := by
      have : ¬ k < k0 := fun hlt => hz.2.2 k (Int.le_refl _) hlt (hv.mem_allPositions.1 hmem)
      have := hz.1
      omega
    subst hkk
    have htr := hr t hst'.1
    have htk : k0 ≤ t := by
      obtain ⟨_, Q, _, ⟨a, _, _⟩ | ⟨a, b, c⟩⟩ := hst
      · exact a
      · by_cases htk : t < k0
        · have hQ0 : Q.length = 0 := by omega
          have hm := (c t).2 ⟨Int.le_refl _, htk, hv.mem_allPositions.1 hst'.1⟩
          rw [List.eq_nil_of_length_eq_zero hQ0] at hm
          cases hm
        · omega
    have hos : tb.OwnsOpt (some w.schedule) := by
      intro x hx; cases hx
      have := owns_roll hv hw h0 hn
      simpa using this
    obtain ⟨v, hvv⟩ : ∃ v, Interval.new tb (w.loc, w1.loc) (some w.schedule) = .ok v :=
      ⟨_, Interval.new_ok_iff.2 ⟨by omega, by omega, by omega, rfl⟩⟩
    refine ⟨v, hvv, ?_⟩
    have fv := Interval.new_fine hv hos hvv
    have hsc : v.schedule = w.schedule ∧ v.lo = w.loc ∧ v.hi = w1.loc := by
      obtain ⟨_, _, _, rfl⟩ := Interval.new_ok_iff.1 hvv
      exact ⟨rfl, rfl, rfl⟩
    rw [fv.count_eq hv hn (.inl rfl)]
    simp only [Option.getD_none, hsc.1, hsc.2.1, hsc.2.2]
    have hcnt := ssLeft_sub hs (a := k0) (b := t + 1) (by omega) (Q := tb.dutyPositions w.schedule.selector .on w.loc w1.loc)
      (tb.pairwise_dutyPositions _ _ _ _) (by
        intro j
        rw [hv.mem_allPositions, hv.mem_dutyPositions_iff (by omega) (by omega), hloc, hl1]
        constructor
        · rintro ⟨a, b, c⟩; exact ⟨a, by omega, c⟩
        · rintro ⟨a, b, c⟩; exact ⟨a, by omega, c⟩)
    have e := ssLeft_succ_of_mem hs hst'.1
    congr 1
    omega

example : (do let w ← Workshift.new week 5; let w1 ← w.add week 4; return w1.loc) = .ok 10 ∧
    (do let w ← Workshift.new week 5; let w1 ← w.add week 4; let w2 ← w1.sub week 4; return w2.loc) = .ok 5 ∧
    ((Interval.new week (5, 10)).bind (fun v => v.count week .on)) = .ok 5 := by decide +kernel

end TB
