import Verif.Lemmas.Later3
import Verif.Lemmas.Recurs
import Verif.Examples.Boards
/-!
# C89: the same timeboard some time later

If all points in time given to a timeboard are moved by a time after which the calendar periods involved recur, the workshifts
are moved by this time and nothing else changes: what is asked about the second timeboard with all points moved is answered as
for the first one.
-/
namespace TB
variable {L : Type}

theorem Timeboard.Later.facts {d : Int} {tb tb' : Timeboard L} (h : tb.Later d tb') : tb.AgreeBy d tb' ∧ tb.defaultSchedule = tb'.defaultSchedule := by
  have hv := h.reachable.valid
  have hv' := h.reachable'.valid
  have hag := h.same.agree hv hv'
  refine ⟨hag, ?_⟩
  have e1 : tb.defaultSchedule = _ := hv.default_owned
  have e2 : tb'.defaultSchedule = _ := hv'.default_owned
  rw [e1, e2, h.name, h.selector, hag.schedule_eq]

/-- **C89**, construction: if the base unit recurs after the time `d`, and so do the marks of all markers of the layout, then the
arguments with all points in time moved by `d` give the same error, or the same workshifts `d` later; RememberingPatterns are
left in the same state. -/
theorem C89_moved {a : Args L} {d : Int} (hb : a.freq.base.Recurs d) (hm : ∀ m, a.layout.UsesMarker m → m.Recurs a.freq d) (heap : Heap L) :
    (∀ e, Timeboard.new (a.later d) heap = .error e ↔ Timeboard.new a heap = .error e) ∧
    (∀ tb heap', Timeboard.new a heap = .ok (tb, heap') → ∃ tb', Timeboard.new (a.later d) heap = .ok (tb', heap') ∧ tb.Later d tb') ∧
    (∀ tb' heap', Timeboard.new (a.later d) heap = .ok (tb', heap') → ∃ tb, Timeboard.new a heap = .ok (tb, heap') ∧ tb.Later d tb') := by
  obtain ⟨k, hk⟩ := hb
  have hnew := Timeboard.new_later hk hm heap
  have key : ∀ tb heap', Timeboard.new a heap = .ok (tb, heap') → ∃ tb', Timeboard.new (a.later d) heap = .ok (tb', heap') ∧ tb.Later d tb' := by
    intro tb heap' h
    rw [h] at hnew
    have hr := Timeboard.Reachable.new h
    have hM : tb.timeline.frame.Moves d k := by
      unfold Frame.Moves
      rw [Timeboard.later_frame h]; exact hk
    exact ⟨tb.move k, hnew, hr, .new hnew, Timeboard.laterBy_move hr.valid hM, rfl, rfl, rfl⟩
  refine ⟨?_, key, ?_⟩
  · intro e
    rw [hnew]
    cases Timeboard.new a heap with
    | error e' => exact ⟨fun h => by cases h; rfl, fun h => by cases h; rfl⟩
    | ok r => exact ⟨(fun h => by cases h), (fun h => by cases h)⟩
  · intro tb' heap' h
    cases ha : Timeboard.new a heap with
    | error e => rw [hnew, ha] at h; cases h
    | ok r =>
      obtain ⟨tb'', e1, e2⟩ := key r.1 r.2 ha
      rw [e1] at h
      injection h with h
      cases h
      exact ⟨r.1, rfl, e2⟩

theorem Base.Weekly.recurs {b : Base} (h : b.Weekly) (n : Int) : b.Recurs (7 * n * nsDay) := by
  cases b with
  | S => exact (Base.recurs_days _).1
  | T => exact (Base.recurs_days _).2.1
  | H => exact (Base.recurs_days _).2.2.1
  | D => exact (Base.recurs_days _).2.2.2
  | W e => exact Base.recurs_week e n
  | M => cases h
  | Q e => cases h
  | A e => cases h

/-- **C89**, after whole weeks: timeboards whose base unit and markers are not longer than a week recur after any number of weeks. -/
theorem C89_weeks {a : Args L} (hb : a.freq.base.Weekly) (hm : ∀ m, a.layout.UsesMarker m → m.Weekly) (n : Int) :
    a.freq.base.Recurs (7 * n * nsDay) ∧ ∀ m, a.layout.UsesMarker m → m.Recurs a.freq (7 * n * nsDay) := by
  refine ⟨hb.recurs n, ?_⟩
  intro m hmm
  obtain ⟨h1, h2⟩ := hm m hmm
  refine ⟨h1.recurs n, ?_⟩
  intro how hh pi pi' e1 e2 e3 e4
  obtain ⟨kwargs, rfl, hk⟩ := h2 how hh
  exact fromStartOfEach_later (hb.recurs n) (addOffset_fixed (fun o ho => by obtain ⟨x, y⟩ := hk o ho; omega) _) (by rw [e1]; exact h1.recurs n)
    (by rw [e2, e1]) e3 e4

/-- **C89**, after whole days: so do seconds, minutes, hours and days after any number of days, and after 146097 days (400 years)
all calendar periods and the marks at an offset from the start of the period or on the n-th weekday of a month. -/
theorem C89_centuries (f : Freq) (n : Int) {m : Marker} (hm : m.Civil) :
    f.base.Recurs (146097 * n * nsDay) ∧ m.Recurs f (146097 * n * nsDay) ∧
    (f.base ∈ [Base.S, .T, .H, .D] → ∀ j, f.base.Recurs (j * nsDay)) := by
  refine ⟨Base.recurs_400 _ n, ⟨Base.recurs_400 _ n, ?_⟩, ?_⟩
  · intro how hh pi pi' e1 e2 e3 e4
    rcases hm how hh with ⟨kwargs, rfl⟩ | ⟨month, week, wday, shift, rfl⟩
    · exact fromStartOfEach_later (Base.recurs_400 _ n) (addOffset_400 kwargs n) (Base.recurs_400 _ n) (by rw [e2, e1]) e3 e4
    · exact nthWeekdayOfMonth_later month week wday shift f n (by rw [e2, e1]) e3 e4
  · intro h j
    simp only [List.mem_cons, List.not_mem_nil, or_false] at h
    have := Base.recurs_days j
    rcases h with h | h | h | h <;> rw [h]
    · exact this.1
    · exact this.2.1
    · exact this.2.2.1
    · exact this.2.2.2

/-- **C89**, finding workshifts and intervals: the moved point in time gives the workshift with the same number, and the moved
arguments of `get_interval` and of a call of the timeboard give the same interval or the same error; so do added schedules. -/
theorem C89_lookup {d : Int} {tb tb' : Timeboard L} (h : tb.Later d tb') :
    tb'.startTime = tb.startTime + d ∧ tb'.endTime = tb.endTime + d ∧
    (∀ t s, tb'.getWorkshift (t + d) s = tb.getWorkshift t s) ∧
    (∀ ref length period clip closed s, (∀ p, ref = some (.period p) → p.freq.base.Recurs d) → (∀ f, period = some f → f.base.Recurs d) →
      tb'.getInterval (ref.map (IvlRef.later d)) length period clip closed s = tb.getInterval ref length period clip closed s ∧
      tb'.callN (ref.map (IvlRef.later d)) length period clip closed s = tb.callN ref length period clip closed s) ∧
    (∀ ref, (∀ p, ref = .period p → p.freq.base.Recurs d) → tb'.call1 (ref.later d) = tb.call1 ref) ∧
    (∀ name sel x y s s', tb.addSchedule name sel = .ok (s, x) → tb'.addSchedule name sel = .ok (s', y) → s = s' ∧ x.Later d y) := by
  obtain ⟨hag, hd⟩ := h.facts
  refine ⟨hag.startTime, hag.endTime, hag.getWorkshift_eq hd, ?_, fun ref hr => hag.call1_eq hd hr, ?_⟩
  · intro ref length period clip closed s hr hp
    exact ⟨hag.getInterval_eq hd hr length hp clip closed s, hag.callN_eq hd hr length hp clip closed s⟩
  · intro name sel x y s s' hx hy
    have rx := Timeboard.Reachable.add h.reachable hx
    have ry := Timeboard.Reachable.add h.reachable' hy
    unfold Timeboard.addSchedule at hx hy
    split at hx
    · cases hx
    · split at hy
      · cases hy
      · injection hx with hx
        injection hy with hy
        cases hx
        cases hy
        exact ⟨hag.schedule_eq name sel, rx, ry, ⟨h.same.number, fun k h0 h1 => h.same.each k h0 h1⟩, h.name, h.selector, h.source⟩

/-- **C89**, workshifts: times are moved; duty, duration, work time and stepping are the same. -/
theorem C89_workshifts {d : Int} {tb tb' : Timeboard L} (h : tb.Later d tb') (w : Workshift L) :
    w.startTime tb' = (w.startTime tb).map (· + d) ∧ w.endTime tb' = (w.endTime tb).map (· + d) ∧
    w.toTimestamp tb' = (w.toTimestamp tb).map (· + d) ∧ w.duration tb' = w.duration tb ∧
    (∀ s, w.isOnDuty tb' s = w.isOnDuty tb s) ∧ (∀ s, w.isOffDuty tb' s = w.isOffDuty tb s) ∧
    (∀ num du s, w.worktime tb' num du s = w.worktime tb num du s) ∧
    (∀ n du s, w.rollforward tb' n du s = w.rollforward tb n du s) ∧ (∀ n du s, w.rollback tb' n du s = w.rollback tb n du s) ∧
    (∀ n, w.add tb' n = w.add tb n) ∧ (∀ n, w.sub tb' n = w.sub tb n) := by
  obtain ⟨hag, hd⟩ := h.facts
  have hv := h.reachable.valid
  have hv' := h.reachable'.valid
  exact ⟨hag.start _, hag.stop _, hag.ref _, h.same.wsDuration_eq hv hv' _, hag.isOnDuty_eq w, hag.isOffDuty_eq w,
    h.same.ws_worktime_eq hv hv' h.source w, hag.rollforward_eq hd w, hag.rollback_eq hd w,
    fun n => hag.rollforward_eq hd w n .on none, fun n => hag.rollback_eq hd w n .on none⟩

/-- **C89**, intervals: times are moved; members, counts, overlaps, portions, durations, work time and the number of calendar
periods which recur are the same. -/
theorem C89_intervals {d : Int} {tb tb' : Timeboard L} (h : tb.Later d tb') (v : Interval L) :
    v.startTime tb' = (v.startTime tb).map (Option.map (· + d)) ∧ v.endTime tb' = (v.endTime tb).map (Option.map (· + d)) ∧
    v.iter tb' = v.iter tb ∧ (∀ du s, v.workshifts tb' du s = v.workshifts tb du s) ∧ (∀ n du s, v.nth tb' n du s = v.nth tb n du s) ∧
    (∀ du s, v.first tb' du s = v.first tb du s) ∧ (∀ du s, v.last tb' du s = v.last tb du s) ∧
    (∀ du s, v.count tb' du s = v.count tb du s) ∧ (∀ u s, v.overlap tb' u s = v.overlap tb u s) ∧
    (∀ u du s, v.whatPortionOf tb' u du s = v.whatPortionOf tb u du s) ∧
    (∀ du s, v.totalDuration tb' du s = v.totalDuration tb du s) ∧
    (∀ num du s, v.worktime tb' num du s = v.worktime tb num du s) ∧
    (∀ f, f.base.Recurs d → ∀ du s, v.countPeriods tb' f du s = v.countPeriods tb f du s) := by
  obtain ⟨hag, hd⟩ := h.facts
  have hv := h.reachable.valid
  have hv' := h.reachable'.valid
  exact ⟨hag.startTime_eq v, hag.endTime_eq v, hag.workshifts_eq hd v .any none, hag.workshifts_eq hd v, hag.nth_eq hd v,
    fun du s => hag.nth_eq hd v 0 du s, fun du s => hag.nth_eq hd v (-1) du s, hag.count_eq v, hag.overlap_eq hd v, hag.whatPortionOf_eq hd v,
    h.same.totalDuration_eq hv hv' v, h.same.worktime_eq hv hv' h.source v, fun f hf => hag.countPeriods_eq hd hf v⟩


/-! The hypotheses are met: the week of the examples 100 weeks later, and shifts with marks; a month is not moved by weeks. -/
namespace Ex

theorem week_later : ∃ tb', Timeboard.new (weekArgs.later (7 * 100 * nsDay)) heap0 = .ok tb' ∧ week.Later (7 * 100 * nsDay) tb'.1 := by
  have hw : ∀ m, weekArgs.layout.UsesMarker m → m.Weekly := by
    intro m hm
    rcases hm with ⟨es, hw⟩ | ⟨i, hw⟩
    · cases hw with
      | here => exact ⟨trivial, fun how hh => by cases hh⟩
      | elem h1 h2 =>
        simp only [List.mem_singleton] at h1
        subst h1
        cases h2
    · cases hw with
      | elem h1 h2 =>
        simp only [List.mem_singleton] at h1
        subst h1
        cases h2
  obtain ⟨h1, h2⟩ := C89_weeks (a := weekArgs) trivial hw 100
  obtain ⟨heap', h⟩ := board_ok weekArgs (by decide +kernel)
  obtain ⟨tb', e1, e2⟩ := (C89_moved h1 h2 heap0).2.1 _ _ h
  exact ⟨_, e1, e2⟩

/- Eight-hour days of January 2017 and 100 weeks later. -/
#guard ((week.getInterval none).bind (fun v => v.worktime week (fun l => some (l : Rat)))).toOption == some 22
#guard (match Timeboard.new (weekArgs.later (7 * 100 * nsDay)) heap0 with
  | .ok (tb', _) => tb'.startTime == date 2018 12 2 && ((tb'.getInterval none).bind (fun v => v.worktime tb' (fun l => some (l : Rat)))).toOption == some 22
  | .error _ => false)

/-- Months do not recur after four weeks: the number of days of the months differs. -/
theorem month_not_weekly : ¬ Base.Recurs .M (7 * 4 * nsDay) := by
  rintro ⟨k, hk⟩
  have h1 := ordOf_later hk (date 2017 1 1)
  have h2 := ordOf_later hk (date 2017 1 31)
  have e1 : Base.M.ordOf (date 2017 1 1 + 7 * 4 * nsDay) = 564 := by decide +kernel
  have e2 : Base.M.ordOf (date 2017 1 31 + 7 * 4 * nsDay) = 565 := by decide +kernel
  have e3 : Base.M.ordOf (date 2017 1 1) = 564 := by decide +kernel
  have e4 : Base.M.ordOf (date 2017 1 31) = 564 := by decide +kernel
  omega

end Ex

end TB
