import Verif.Lemmas.Parameters
import Verif.Examples.Boards
/-!
# C83: every parameter of a timeboard affects only what it is documented to affect

`workshift_ref`, `worktime_source`, `default_selector` and `default_name` decide nothing about the workshifts.
-/
namespace TB
variable {L : Type}

/-- **C83**, `workshift_ref`: a timeboard with the other value is made in the same cases, has the same schedules and
answers alike all questions except those about calendar periods. -/
theorem C83_workshift_ref (a : Args L) (b : Bool) (heap : Heap L) :
    (∀ e, Timeboard.new a heap = .error e ↔ Timeboard.new { a with refEnd := b } heap = .error e) ∧
    ∀ tb k tb' k', Timeboard.new a heap = .ok (tb, k) → Timeboard.new { a with refEnd := b } heap = .ok (tb', k') →
      k = k' ∧ tb.defaultSchedule = tb'.defaultSchedule ∧ tb.schedules = tb'.schedules ∧ tb.AnswersAlike tb' (fun _ => True) ∧
      ∀ num, tb.WorktimeAlike tb' num := by
  have h := Timeboard.new_withRef a b heap
  cases hn : Timeboard.new a heap with
  | error e0 =>
    rw [hn] at h
    simp only at h
    rw [h]
    exact ⟨fun e => Iff.rfl, fun _ _ _ _ h => by cases h⟩
  | ok r =>
    obtain ⟨tb, k⟩ := r
    rw [hn] at h
    simp only at h
    rw [h]
    refine ⟨fun e => by simp, ?_⟩
    intro tb0 k0 tb' k' h1 h2
    cases h1
    cases h2
    refine ⟨rfl, rfl, rfl, ?_, fun num => ⟨fun _ _ _ => rfl, fun _ _ _ => rfl⟩⟩
    constructor <;> intros <;> first | rfl | exact ⟨rfl, rfl⟩ | exact ⟨rfl, rfl, rfl⟩

/-- **C83**, `workshift_ref` matters only for workshifts which extend over the beginning of a period: when there are none,
the questions about periods of this frequency (possibly taken several together) are answered alike as well. -/
theorem C83_workshift_ref_unsplit {a : Args L} {b : Bool} {heap : Heap L} {tb tb' : Timeboard L} {k k' : Heap L}
    (h : Timeboard.new a heap = .ok (tb, k)) (h' : Timeboard.new { a with refEnd := b } heap = .ok (tb', k')) {f : Freq} (hu : tb.Unsplit f) :
    (∀ (p : Period) clip closed s, p.freq.base = f.base →
      tb.getInterval (some (.period p)) none none clip closed s = tb'.getInterval (some (.period p)) none none clip closed s) ∧
    (∀ t (g : Freq) clip closed s, g.base = f.base →
      tb.getInterval (some (.point t)) none (some g) clip closed s = tb'.getInterval (some (.point t)) none (some g) clip closed s) ∧
    (∀ v d s, tb.HasInterval v → tb.OwnsOpt s → v.countPeriods tb f d s = v.countPeriods tb' f d s) := by
  have e := Timeboard.new_withRef a b heap
  rw [h] at e
  simp only at e
  rw [e] at h'
  cases h'
  have hv := (Timeboard.Reachable.new h).valid
  refine ⟨?_, ?_, ?_⟩
  · intro p clip closed s hp
    exact (Timeboard.Unsplit.getInterval_period hv hu b (fun q hq => by cases hq; exact hp) clip closed s).symm
  · intro t g clip closed s hg
    exact (Timeboard.Unsplit.getInterval_freq hv hu b hg (fun q hq => by cases hq) clip closed s).symm
  · intro v d s hi hs
    exact (Timeboard.Unsplit.countPeriods_eq hv hu b (hi.fine hv) d hs).symm

/-- **C83**, `worktime_source`: with another permitted value all questions but those about work time are answered
alike. -/
theorem C83_worktime_source (a : Args L) (src : String) (heap : Heap L) (hs : a.worktimeSource ∈ ["duration", "labels"])
    (hs' : src ∈ ["duration", "labels"]) :
    (∀ e, Timeboard.new a heap = .error e ↔ Timeboard.new { a with worktimeSource := src } heap = .error e) ∧
    ∀ tb k tb' k', Timeboard.new a heap = .ok (tb, k) → Timeboard.new { a with worktimeSource := src } heap = .ok (tb', k') →
      k = k' ∧ tb.defaultSchedule = tb'.defaultSchedule ∧ tb.schedules = tb'.schedules ∧ tb.AnswersAlike tb' (fun _ => True) ∧
      tb.PeriodsAlike tb' (fun _ => True) := by
  have h : Timeboard.new { a with worktimeSource := src } heap = match Timeboard.new a heap with
      | .error e => .error e
      | .ok (tb, k) => .ok ({ tb with worktimeSource := src }, k) := Timeboard.new_withSource a src heap hs hs'
  cases hn : Timeboard.new a heap with
  | error e0 =>
    rw [hn] at h
    simp only at h
    rw [h]
    exact ⟨fun e => Iff.rfl, fun _ _ _ _ h => by cases h⟩
  | ok r =>
    obtain ⟨tb, k⟩ := r
    rw [hn] at h
    simp only at h
    rw [h]
    refine ⟨fun e => by simp, ?_⟩
    intro tb0 k0 tb' k' h1 h2
    cases h1
    cases h2
    refine ⟨rfl, rfl, rfl, ?_, ?_⟩
    · constructor <;> intros <;> first | rfl | exact ⟨rfl, rfl⟩ | exact ⟨rfl, rfl, rfl⟩
    · refine ⟨fun _ _ _ _ _ _ => rfl, fun v f d s => ?_, fun _ => rfl⟩
      exact Timeboard.countPeriods_source tb src v f d s

/-- **C83**, `default_selector` and `default_name`: with other values all questions for which a schedule is given are answered
alike. -/
theorem C83_default_schedule (a : Args L) (sel : L → Bool) (name : Option String) (heap : Heap L) :
    (∀ e, Timeboard.new a heap = .error e ↔ Timeboard.new { a with selector := sel, defaultName := name } heap = .error e) ∧
    ∀ tb k tb' k', Timeboard.new a heap = .ok (tb, k) → Timeboard.new { a with selector := sel, defaultName := name } heap = .ok (tb', k') →
      k = k' ∧ tb.AnswersAlike tb' (fun s => s.isSome = true) ∧ tb.PeriodsAlike tb' (fun s => s.isSome = true) ∧
      ∀ num, tb.WorktimeAlike tb' num := by
  obtain ⟨g, h⟩ := Timeboard.new_withDefault a sel name heap
  cases hn : Timeboard.new a heap with
  | error e0 =>
    rw [hn] at h
    simp only at h
    rw [h]
    exact ⟨fun e => Iff.rfl, fun _ _ _ _ h => by cases h⟩
  | ok r =>
    obtain ⟨tb, k⟩ := r
    rw [hn] at h
    simp only at h
    rw [h]
    refine ⟨fun e => by simp, ?_⟩
    intro tb0 k0 tb' k' h1 h2
    cases h1
    cases h2
    refine ⟨rfl, ?_, ?_, fun num => ⟨fun _ _ _ => rfl, fun _ _ _ => rfl⟩⟩
    · constructor <;> intros <;> first | rfl | exact ⟨rfl, rfl⟩ | exact ⟨rfl, rfl, rfl⟩ | skip
      all_goals (rename_i s hs; obtain ⟨s, rfl⟩ := Option.isSome_iff_exists.1 hs; rfl)
    · refine ⟨fun _ _ _ _ s hs => ?_, fun v f d s => ?_, fun _ => rfl⟩
      · obtain ⟨s, rfl⟩ := Option.isSome_iff_exists.1 hs
        exact Timeboard.withDefault_getInterval _ _ _ _ _ _ _ _ _
      · exact Timeboard.withDefault_countPeriods _ _ _ _ _ _ _

/-! The hypotheses are met: no day of January extends over the beginning of a week. -/
namespace Ex

theorem week_unsplit : week.Unsplit fW := by
  have key : ∀ k : Fin 31, (week.timeline.wsStart k.val).toOption.map (fun t => fW.base.ordOf t) = (week.timeline.wsEnd k.val).toOption.map (fun t => fW.base.ordOf t) ∧
      week.timeline.len = 31 := by decide +kernel
  intro k w x y h0 h1 hw hx hy o
  have hk : w.loc = k := by
    unfold Workshift.new at hw
    split at hw
    · cases hw
    · injection hw with hw; rw [← hw]
  rw [(key 0).2] at h1
  have := (key ⟨k.toNat, by omega⟩).1
  unfold Workshift.startTime at hx
  unfold Workshift.endTime at hy
  simp only [show ((k.toNat : Nat) : Int) = k by omega] at this
  rw [hk] at hx hy
  rw [hx, hy] at this
  simp only [Except.toOption, Option.map_some, Option.some.injEq] at this
  rintro ⟨h2, h3⟩
  rw [Base.startOf_le_iff, ← this, ← Base.startOf_le_iff] at h3
  omega

def weekEnds : Timeboard Int := board { weekArgs with refEnd := true } (by decide +kernel)

example : ∀ v d s, week.HasInterval v → week.OwnsOpt s → v.countPeriods week fW d s = v.countPeriods weekEnds fW d s := by
  obtain ⟨k, h⟩ := board_ok weekArgs (by decide +kernel)
  obtain ⟨k', h'⟩ := board_ok { weekArgs with refEnd := true } (by decide +kernel)
  exact (C83_workshift_ref_unsplit (b := true) h h' week_unsplit).2.2

/- Night shifts extend over midnight, and with them the value of `workshift_ref` makes a difference: on 31 October the
second and the third shift end, the third and the fourth one start. -/
def shiftsByStart : Timeboard Int := board { shiftArgs with refEnd := false } (by decide +kernel)

example : ((shifts.getInterval (some (.point (date 2017 10 31))) none (some fD)).toOption.map (fun v => (v.lo, v.hi)),
    (shiftsByStart.getInterval (some (.point (date 2017 10 31))) none (some fD)).toOption.map (fun v => (v.lo, v.hi))) =
    (some (1, 2), some (2, 3)) := by decide +kernel

end Ex

end TB
