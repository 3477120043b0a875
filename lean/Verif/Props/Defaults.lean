import Verif.Props.Roll
import Verif.Props.Worktime
import Verif.Props.Calendars
/-! Property C86: arguments which are not given. -/
namespace TB
open TB.Ex
variable {L : Type}

/-- **C86**, intervals (void ones included): a duty which is not given is 'on', a schedule which is not given is that of the interval. -/
theorem C86_interval (tb : Timeboard L) (v : Interval L) :
    (v.workshifts tb = v.workshifts tb .on (some v.schedule)) ∧
    (∀ n, v.nth tb n = v.nth tb n .on (some v.schedule)) ∧
    (v.first tb = v.first tb .on (some v.schedule)) ∧
    (v.last tb = v.last tb .on (some v.schedule)) ∧
    (v.count tb = v.count tb .on (some v.schedule)) ∧
    (∀ u, v.overlap tb u = v.overlap tb u (some v.schedule)) ∧
    (∀ u, v.whatPortionOf tb u = v.whatPortionOf tb u .on (some v.schedule)) ∧
    (∀ f, v.countPeriods tb f = v.countPeriods tb f .on (some v.schedule)) ∧
    (v.totalDuration tb = v.totalDuration tb .on (some v.schedule)) ∧
    (∀ num, v.worktime tb num = v.worktime tb num .on (some v.schedule)) :=
  ⟨rfl, fun _ => rfl, rfl, rfl, rfl, fun _ => rfl, fun _ => rfl, fun _ => rfl, rfl, fun _ => rfl⟩

/-- **C86**, what this amounts to: without arguments the methods of an interval deal with its workshifts which are on duty under the
schedule the interval was made with, or under the default schedule of the timeboard. -/
theorem C86_interval_on_duty {tb : Timeboard L} (h : tb.Reachable) {a b : Int} {s0 : Option (Schedule L)} {v : Interval L}
    (hv : Interval.new tb (a, b) s0 = .ok v) (h0 : tb.OwnsOpt s0) :
    ∃ ws ds, tb.ListsDuty (s0.getD tb.defaultSchedule) .on a b ws ∧ v.workshifts tb = .ok ws ∧ v.count tb = .ok (ws.length : Int) ∧
      (v.first tb = match ws.head? with | some w => .ok w | none => .error .outOfBounds) ∧
      (v.last tb = match ws.getLast? with | some w => .ok w | none => .error .outOfBounds) ∧
      (∀ n : Nat, v.nth tb n = match ws[n]? with | some w => .ok w | none => .error .outOfBounds) ∧
      ws.mapM (fun w => w.duration tb) = .ok ds ∧ v.totalDuration tb = .ok ds.sum := by
  have hn : tb.OwnsOpt (none : Option (Schedule L)) := by intro x hx; cases hx
  obtain ⟨ws, h1, h2, h3⟩ := (C17_iteration h hv h0 hn).1 .on (.inl rfl)
  obtain ⟨ws1, k1, k2, _, k4, k5, k6⟩ := C18_nth_first_last h hv h0 hn .on (.inl rfl)
  rw [h1] at k1; cases k1
  obtain ⟨ws2, ds, d1, d2, d3⟩ := (C26_total_duration h hv h0 hn).1 .on (.inl rfl)
  rw [h1] at d1; cases d1
  have hs : v.schedule = s0.getD tb.defaultSchedule := by
    obtain ⟨_, _, _, e⟩ := Interval.new_ok_iff.1 hv
    rw [e]; rfl
  refine ⟨ws, ds, ?_, h1, h3, k5, k6, ?_, d2, d3⟩
  · rw [← hs]; exact h2
  · intro n
    by_cases hlt : n < ws.length
    · obtain ⟨w, w1, w2⟩ := k2 n (by omega) (by omega)
      simp only [Int.toNat_natCast] at w1
      rw [w1]
      exact w2
    · rw [List.getElem?_eq_none (by omega)]
      exact k4 n (.inl (by omega))

example : ((Interval.new week (0, 9)).bind (fun v => v.count week)) = .ok 7 ∧
    ((Interval.new week (0, 9)).bind (fun v => v.count week .any)) = .ok 10 := by decide +kernel

/-- **C86**, workshifts. -/
theorem C86_workshift (tb : Timeboard L) (w : Workshift L) :
    (w.isOnDuty tb = w.isOnDuty tb (some w.schedule)) ∧ (w.isOffDuty tb = w.isOffDuty tb (some w.schedule)) ∧
    (∀ n d, w.rollforward tb n d = w.rollforward tb n d (some w.schedule)) ∧ (∀ n d, w.rollback tb n d = w.rollback tb n d (some w.schedule)) ∧
    (∀ n, w.rollforward tb n = w.rollforward tb n .on) ∧ (∀ n, w.rollback tb n = w.rollback tb n .on) ∧
    (∀ num, w.worktime tb num = w.worktime tb num .on (some w.schedule)) :=
  ⟨rfl, rfl, fun _ _ => rfl, fun _ _ => rfl, fun _ => rfl, fun _ => rfl, fun _ => rfl⟩

/-- A position is zero steps away from itself only. -/
theorem Timeboard.StepsTo.zero_iff {tb : Timeboard L} {s : Schedule L} {d : Duty} {k0 t : Int} (h0 : tb.DutyAt s d k0) :
    tb.StepsTo s d k0 t 0 ↔ t = k0 := by
  constructor
  · rintro ⟨h1, l, _, h3⟩
    have hl : ∀ {x : Int}, (0 : Int) = x → x = (l.length : Int) ∨ x = -(l.length : Int) → l = [] := by
      intro x hx h
      exact List.length_eq_zero_iff.1 (by omega)
    rcases h3 with ⟨a, b, c⟩ | ⟨a, b, c⟩
    · have hl := hl b (.inl rfl)
      subst hl
      have := c k0
      simp only [List.not_mem_nil, false_iff] at this
      rcases Int.lt_or_le k0 t with h | h
      · exact absurd ⟨Int.le_refl _, h, h0⟩ this
      · omega
    · have hl := hl b (.inr rfl)
      subst hl
      have := c t
      simp only [List.not_mem_nil, false_iff] at this
      rcases Int.lt_or_le t k0 with h | h
      · exact absurd ⟨Int.le_refl _, h, h1⟩ this
      · omega
  · rintro rfl
    refine ⟨h0, [], List.Pairwise.nil, .inl ⟨Int.le_refl _, rfl, ?_⟩⟩
    intro j
    simp only [List.not_mem_nil, false_iff]
    omega

/-- **C86**, rolling without arguments: the nearest workshift on duty at or after (at or before) this one, under its own schedule. -/
theorem C86_rolling {tb : Timeboard L} (h : tb.Reachable) {k : Int} {sw : Option (Schedule L)} {w : Workshift L}
    (hk : 0 ≤ k ∧ k < tb.timeline.len) (hw : Workshift.new tb k sw = .ok w) (h0 : tb.OwnsOpt sw) :
    (∀ w', w.rollforward tb = .ok w' ↔ ∃ k0, tb.ZeroForward (sw.getD tb.defaultSchedule) .on k k0 ∧
      Workshift.new tb k0 (some (sw.getD tb.defaultSchedule)) = .ok w') ∧
    (∀ w', w.rollback tb = .ok w' ↔ ∃ k0, tb.ZeroBack (sw.getD tb.defaultSchedule) .on k k0 ∧
      Workshift.new tb k0 (some (sw.getD tb.defaultSchedule)) = .ok w') := by
  have hn : tb.OwnsOpt (none : Option (Schedule L)) := by intro x hx; cases hx
  have hs := Workshift.new_schedule hw
  constructor
  · intro w'
    rw [(C19_rollforward h hk hw h0 hn 0 (d := .on) (.inl rfl)).1 w']
    simp only [Option.getD_none]
    rw [hs]
    constructor
    · rintro ⟨k0, t, z, st, e⟩
      have := (Timeboard.StepsTo.zero_iff z.2.1).1 st
      subst this
      exact ⟨_, z, e⟩
    · rintro ⟨k0, z, e⟩
      exact ⟨k0, k0, z, (Timeboard.StepsTo.zero_iff z.2.1).2 rfl, e⟩
  · intro w'
    rw [(C20_rollback h hk hw h0 hn 0 (d := .on) (.inl rfl)).1 w']
    simp only [Option.getD_none, Int.neg_zero]
    rw [hs]
    constructor
    · rintro ⟨k0, t, z, st, e⟩
      have := (Timeboard.StepsTo.zero_iff z.2.1).1 st
      subst this
      exact ⟨_, z, e⟩
    · rintro ⟨k0, z, e⟩
      exact ⟨k0, k0, z, (Timeboard.StepsTo.zero_iff z.2.1).2 rfl, e⟩

example : (((Workshift.new week 0).bind (fun w => w.rollforward week)).map (fun w => w.loc)) = .ok 2 := by decide +kernel

/-- **C86**, lookup: by default the schedule is that of the timeboard, periods are clipped and both ends are included. -/
theorem C86_lookup (tb : Timeboard L) :
    (∀ k, Workshift.new tb k = Workshift.new tb k (some tb.defaultSchedule)) ∧
    (∀ t, tb.getWorkshift t = tb.getWorkshift t (some tb.defaultSchedule)) ∧
    (∀ b, Interval.new tb b = Interval.new tb b (some tb.defaultSchedule)) ∧
    (∀ r n p, tb.getInterval r n p = tb.getInterval r n p true "11" (some tb.defaultSchedule)) ∧
    (∀ r, tb.getInterval r = tb.getInterval r none none) := by
  have hi : ∀ b, Interval.new tb b = Interval.new tb b (some tb.defaultSchedule) := fun _ => rfl
  refine ⟨fun _ => rfl, fun _ => rfl, hi, ?_, fun _ => rfl⟩
  intro r n p
  rfl

/-- **C86**, construction: by default reference times are starts of workshifts, work time is duration, the schedule is called
'on_duty' and it is the only one, and nothing is amended. -/
theorem C86_construction {f : Freq} {start stop : Time} {lay : Layout L} {sel : L → Bool} {l : L} {heap heap' : Heap L} {tb : Timeboard L}
    (h : Timeboard.new { freq := f, start := start, stop := stop, layout := lay, selector := sel, defaultLabel := l } heap = .ok (tb, heap')) :
    tb.defaultSchedule.name = "on_duty" ∧ tb.schedules = [("on_duty", tb.defaultSchedule)] ∧ tb.worktimeSource = "duration" ∧
    (∀ k w, Workshift.new tb k = .ok w → 0 ≤ k → k < tb.timeline.len → w.toTimestamp tb = w.startTime tb) ∧
    (∀ a b v num d, Interval.new tb (a, b) = .ok v → d = .on ∨ d = .off ∨ d = .any →
      ∃ x : Int, v.totalDuration tb d = .ok x ∧ v.worktime tb num d = .ok (x : Rat)) := by
  obtain ⟨org, fr, tl0, tl, _, _, _, h4, h5, rfl⟩ := Timeboard.new_ok_iff.1 h
  have hre : tl.refEnd = false := by
    have h6 : tl0.refEnd = false := by
      unfold Timeline.new at h4
      simp only at h4
      split at h4
      · cases h4
      · cases h4; rfl
    rw [← h6]
    exact (Timeline.amend_frame h5).2.2.2.1
  refine ⟨rfl, rfl, rfl, ?_, ?_⟩
  · intro k w _ _ _
    unfold Workshift.toTimestamp Workshift.startTime Timeline.wsRef
    simp only [hre]
    rfl
  · intro a b v num d hv hd
    have hn : ({ timeline := tl, defaultSchedule := Schedule.new tl "on_duty" sel, schedules := [("on_duty", Schedule.new tl "on_duty" sel)], worktimeSource := "duration" } : Timeboard L).OwnsOpt none := by
      intro x hx; cases hx
    obtain ⟨ws, ds, _, _, d3⟩ := (C26_total_duration (Timeboard.Reachable.new h) hv hn hn).1 d hd
    refine ⟨_, d3, ?_⟩
    unfold Interval.worktime
    have : v.isVoid = false := by
      obtain ⟨_, _, _, e⟩ := Interval.new_ok_iff.1 hv
      rw [e]
    rw [this]
    simp only [Bool.false_eq_true, if_false]
    rw [if_neg (by decide), if_pos trivial]
    exact congrArg (Except.map fun d : Int => (d : Rat)) d3

example : (((Workshift.new week 3).bind (fun w => w.toTimestamp week))) = .ok (date 2017 1 4) ∧ week.defaultSchedule.name = "on_duty" := by decide +kernel

/-- The bounds of a calendar may be given explicitly. -/
theorem Calendar.new_bounds {c : Calendar} (h : c.start ≤ c.stop) (dna oc : Bool) (cs : Option (List (Time × Int))) (heap : Heap Int) :
    c.new none none dna oc cs heap = c.new (some c.start) (some c.stop) dna oc cs heap := by
  have hb : c.getBounds (some c.start) (some c.stop) = .ok (c.start, c.stop) := by
    unfold Calendar.getBounds Calendar.checkTime
    simp [h, Bind.bind, Except.bind, pure, Except.pure]
  have ha : c.getBounds none none = .ok (c.start, c.stop) := rfl
  unfold Calendar.new
  rw [ha, hb]

/-- **C86**, the preconfigured calendars: by default they cover all the years they know, holidays are observed with long weekends
(UK: those of England; RU: 31 December is a working day and eves are short), there are no custom amendments. -/
theorem C86_calendars (heap : Heap Int) :
    usCalendar.new (heap := heap) = (usCalendar [] true).new (some (date 2000 1 1)) (some (date 2021 1 1 - nsSec)) false false none heap ∧
    ukCalendar.new (heap := heap) = (ukCalendar "england" [] true).new (some (date 2000 1 1)) (some (date 2021 1 1 - nsSec)) false false none heap ∧
    ruCalendar.new (heap := heap) = (ruCalendar true true).new (some (date 2005 1 1)) (some (date 2022 1 1 - nsSec)) false false none heap := by
  have e1 : date 2020 12 31 + (23 * nsHour + 59 * nsMin + 59 * nsSec) = date 2021 1 1 - nsSec := by decide +kernel
  have e2 : date 2021 12 31 + (23 * nsHour + 59 * nsMin + 59 * nsSec) = date 2022 1 1 - nsSec := by decide +kernel
  refine ⟨?_, ?_, ?_⟩
  · rw [Calendar.new_bounds (by decide +kernel)]
    show usCalendar.new (some (date 2000 1 1)) (some (date 2020 12 31 + (23 * nsHour + 59 * nsMin + 59 * nsSec))) _ _ _ heap = _
    rw [e1]
  · rw [Calendar.new_bounds (by decide +kernel)]
    show ukCalendar.new (some (date 2000 1 1)) (some (date 2020 12 31 + (23 * nsHour + 59 * nsMin + 59 * nsSec))) _ _ _ heap = _
    rw [e1]
  · rw [Calendar.new_bounds (by decide +kernel)]
    show ruCalendar.new (some (date 2005 1 1)) (some (date 2021 12 31 + (23 * nsHour + 59 * nsMin + 59 * nsSec))) _ _ _ heap = _
    rw [e2]

end TB
