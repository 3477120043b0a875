import Verif.Props.Dataframe
import Verif.Lemmas.SameTimes
/-! C40, for all sequences of operations on schedules and all calculations. -/
namespace TB
open TB.Ex
variable {L : Type}

/-- A timeboard obtained from another one by adding and dropping schedules any number of times. -/
inductive Timeboard.ScheduleSteps (tb : Timeboard L) : Timeboard L → Prop where
  | refl : ScheduleSteps tb tb
  | step {x y : Timeboard L} : ScheduleSteps tb x → x.ScheduleStep y → ScheduleSteps tb y

theorem Timeboard.ScheduleSteps.facts {tb tb' : Timeboard L} (h : tb.ScheduleSteps tb') : ∃ x, tb' = { tb with schedules := x } := by
  induction h with
  | refl => exact ⟨tb.schedules, rfl⟩
  | step _ h ih =>
    obtain ⟨x, rfl⟩ := ih
    rcases h with ⟨name, sel, s, h⟩ | ⟨s, h⟩
    · unfold Timeboard.addSchedule at h
      split at h
      · cases h
      · cases h; exact ⟨_, rfl⟩
    · unfold Timeboard.dropSchedule at h
      split at h
      · cases h; exact ⟨_, rfl⟩
      · cases h

/-- **C40**, any number of steps and all calculations. -/
theorem C40_sequences {tb tb' : Timeboard L} (h : tb.ScheduleSteps tb') :
    (tb'.startTime = tb.startTime ∧ tb'.endTime = tb.endTime ∧ tb'.defaultSchedule = tb.defaultSchedule ∧ tb'.timeline = tb.timeline) ∧
    (∀ t sch, tb'.getWorkshift t sch = tb.getWorkshift t sch) ∧
    (∀ ref length period clip closed sch, tb'.getInterval ref length period clip closed sch = tb.getInterval ref length period clip closed sch ∧
      tb'.callN ref length period clip closed sch = tb.callN ref length period clip closed sch) ∧
    (∀ ref, tb'.call1 ref = tb.call1 ref) ∧
    (∀ (w : Workshift L) n d sch num, w.startTime tb' = w.startTime tb ∧ w.endTime tb' = w.endTime tb ∧ w.duration tb' = w.duration tb ∧
      w.toTimestamp tb' = w.toTimestamp tb ∧ w.isOnDuty tb' sch = w.isOnDuty tb sch ∧ w.isOffDuty tb' sch = w.isOffDuty tb sch ∧
      w.rollforward tb' n d sch = w.rollforward tb n d sch ∧ w.rollback tb' n d sch = w.rollback tb n d sch ∧
      w.add tb' n = w.add tb n ∧ w.sub tb' n = w.sub tb n ∧ w.worktime tb' num d sch = w.worktime tb num d sch) ∧
    (∀ (v o : Interval L) n d sch num f, v.startTime tb' = v.startTime tb ∧ v.endTime tb' = v.endTime tb ∧ v.iter tb' = v.iter tb ∧
      v.workshifts tb' d sch = v.workshifts tb d sch ∧ v.nth tb' n d sch = v.nth tb n d sch ∧ v.first tb' d sch = v.first tb d sch ∧
      v.last tb' d sch = v.last tb d sch ∧ v.count tb' d sch = v.count tb d sch ∧ v.overlap tb' o sch = v.overlap tb o sch ∧
      v.whatPortionOf tb' o d sch = v.whatPortionOf tb o d sch ∧ v.countPeriods tb' f d sch = v.countPeriods tb f d sch ∧
      v.totalDuration tb' d sch = v.totalDuration tb d sch ∧ v.worktime tb' num d sch = v.worktime tb num d sch) := by
  obtain ⟨x, rfl⟩ := h.facts
  have ha : ({ tb with schedules := x } : Timeboard L).Agree tb := ⟨⟨rfl, fun _ => rfl, fun _ => rfl, fun _ => rfl, fun _ => rfl, rfl, rfl⟩, rfl⟩
  refine ⟨⟨rfl, rfl, rfl, rfl⟩, fun _ _ => rfl, fun _ _ _ _ _ _ => ⟨rfl, rfl⟩, fun _ => rfl,
    fun _ _ _ _ _ => ⟨rfl, rfl, rfl, rfl, rfl, rfl, rfl, rfl, rfl, rfl, rfl⟩, ?_⟩
  intro v o n d sch num f
  exact ⟨rfl, rfl, rfl, rfl, rfl, rfl, rfl, rfl, rfl, rfl, ha.countPeriods_eq rfl v f d sch, rfl, rfl⟩

/-- The default schedule dropped after another one was added. -/
example : ∃ s tb1 tb2, week.addSchedule "long" (fun l => decide (l > 7)) = .ok (s, tb1) ∧ tb1.dropSchedule week.defaultSchedule = .ok tb2 ∧
    week.ScheduleSteps tb2 ∧ tb2.schedules.map Prod.fst = ["long"] := by
  have h : (week.addSchedule "long" (fun l => decide (l > 7))).bind (fun r => (r.2.dropSchedule week.defaultSchedule).map
    (fun tb => tb.schedules.map Prod.fst)) = .ok ["long"] := by decide +kernel
  cases h1 : week.addSchedule "long" (fun l => decide (l > 7)) with
  | error e => rw [h1] at h; cases h
  | ok r =>
    rw [h1] at h
    cases h2 : r.2.dropSchedule week.defaultSchedule with
    | error e => simp only [Except.bind, h2, Except.map] at h; cases h
    | ok tb2 =>
      simp only [Except.bind, h2, Except.map, Except.ok.injEq] at h
      exact ⟨r.1, r.2, tb2, rfl, h2, .step (.step .refl (.inl ⟨_, _, _, h1⟩)) (.inr ⟨_, h2⟩), h⟩

end TB
