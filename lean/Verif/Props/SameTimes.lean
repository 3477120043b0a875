import Verif.Lemmas.SameTimes2
import Verif.Examples.Boards
/-!
# C82: results depend on the times and labels of workshifts, not on the base unit

Two timeboards whose workshifts have the same numbers, times and labels answer every query alike, whatever base units
the workshifts consist of.
-/
namespace TB
variable {L : Type}

/-- Both timeboards are made through the public API, with the same workshifts and default schedules of the same name
and selector. -/
structure Timeboard.Interchangeable (tb tb' : Timeboard L) : Prop where
  reachable : tb.Reachable
  reachable' : tb'.Reachable
  same : tb.SameWorkshifts tb'
  name : tb.defaultSchedule.name = tb'.defaultSchedule.name
  selector : tb.defaultSchedule.selector = tb'.defaultSchedule.selector

theorem Timeboard.Interchangeable.facts {tb tb' : Timeboard L} (h : tb.Interchangeable tb') : tb.Agree tb' ∧ tb.defaultSchedule = tb'.defaultSchedule := by
  have hv := h.reachable.valid
  have hv' := h.reachable'.valid
  have hag := h.same.agree hv hv'
  refine ⟨hag, ?_⟩
  have e1 : tb.defaultSchedule = _ := hv.default_owned
  have e2 : tb'.defaultSchedule = _ := hv'.default_owned
  rw [e1, e2, h.name, h.selector, hag.schedule_eq]

/-- **C82**, finding workshifts and intervals: a point in time gives the same workshift, and any arguments of
`get_interval` and any call of the timeboard give the same interval or the same error; new schedules are the same. -/
theorem C82_lookup {tb tb' : Timeboard L} (h : tb.Interchangeable tb') :
    tb.startTime = tb'.startTime ∧ tb.endTime = tb'.endTime ∧
    (∀ t s, tb.getWorkshift t s = tb'.getWorkshift t s) ∧
    (∀ ref length period clip closed s, tb.getInterval ref length period clip closed s = tb'.getInterval ref length period clip closed s) ∧
    (∀ ref, tb.call1 ref = tb'.call1 ref) ∧
    (∀ ref length period clip closed s, tb.callN ref length period clip closed s = tb'.callN ref length period clip closed s) ∧
    (∀ name sel x y s s', tb.addSchedule name sel = .ok (s, x) → tb'.addSchedule name sel = .ok (s', y) → s = s' ∧ x.Interchangeable y) := by
  obtain ⟨hag, hd⟩ := h.facts
  refine ⟨hag.startTime, hag.endTime, hag.getWorkshift_eq hd, hag.getInterval_eq hd, hag.call1_eq hd, ?_, ?_⟩
  · intro ref length period clip closed s
    unfold Timeboard.callN
    rw [hag.getInterval_eq hd]
  · intro name sel x y s s' hx hy
    have rx := Timeboard.Reachable.add h.reachable hx
    have ry := Timeboard.Reachable.add h.reachable' hy
    unfold Timeboard.addSchedule at hx hy
    split at hx
    · cases hx
    · split at hy
      · cases hy
      · injection hx with hx
        injection hy with hy
        cases hx
        cases hy
        exact ⟨hag.schedule_eq name sel, rx, ry, ⟨h.same.number, fun k h0 h1 => h.same.each k h0 h1⟩, h.name, h.selector⟩

/-- **C82**, workshifts: duty, times, and stepping forwards and backwards. -/
theorem C82_workshifts {tb tb' : Timeboard L} (h : tb.Interchangeable tb') (w : Workshift L) :
    w.startTime tb = w.startTime tb' ∧ w.endTime tb = w.endTime tb' ∧ w.toTimestamp tb = w.toTimestamp tb' ∧
    (∀ s, w.isOnDuty tb s = w.isOnDuty tb' s) ∧ (∀ s, w.isOffDuty tb s = w.isOffDuty tb' s) ∧
    (∀ n d s, w.rollforward tb n d s = w.rollforward tb' n d s) ∧ (∀ n d s, w.rollback tb n d s = w.rollback tb' n d s) ∧
    (∀ n, w.add tb n = w.add tb' n) ∧ (∀ n, w.sub tb n = w.sub tb' n) := by
  obtain ⟨hag, hd⟩ := h.facts
  exact ⟨hag.start _, hag.stop _, hag.ref _, hag.isOnDuty_eq w, hag.isOffDuty_eq w, hag.rollforward_eq hd w, hag.rollback_eq hd w,
    fun n => hag.rollforward_eq hd w n .on none, fun n => hag.rollback_eq hd w n .on none⟩

/-- **C82**, intervals: members, counts, overlaps, portions and calendar periods. -/
theorem C82_intervals {tb tb' : Timeboard L} (h : tb.Interchangeable tb') (v : Interval L) :
    v.startTime tb = v.startTime tb' ∧ v.endTime tb = v.endTime tb' ∧ v.iter tb = v.iter tb' ∧
    (∀ d s, v.workshifts tb d s = v.workshifts tb' d s) ∧ (∀ n d s, v.nth tb n d s = v.nth tb' n d s) ∧
    (∀ d s, v.first tb d s = v.first tb' d s) ∧ (∀ d s, v.last tb d s = v.last tb' d s) ∧
    (∀ d s, v.count tb d s = v.count tb' d s) ∧ (∀ u s, v.overlap tb u s = v.overlap tb' u s) ∧
    (∀ u d s, v.whatPortionOf tb u d s = v.whatPortionOf tb' u d s) ∧
    (∀ num d s, v.sumLabels tb num d s = v.sumLabels tb' num d s) ∧
    (∀ f d s, v.countPeriods tb f d s = v.countPeriods tb' f d s) := by
  obtain ⟨hag, hd⟩ := h.facts
  exact ⟨hag.startTime_eq v, hag.endTime_eq v, hag.workshifts_eq hd v .any none, hag.workshifts_eq hd v, hag.nth_eq hd v,
    fun d s => hag.nth_eq hd v 0 d s, fun d s => hag.nth_eq hd v (-1) d s, hag.count_eq v, hag.overlap_eq hd v, hag.whatPortionOf_eq hd v,
    hag.sumLabels_eq v, hag.countPeriods_eq hd v⟩

/-- **C82**, work time which is told by the labels. -/
theorem C82_worktime {tb tb' : Timeboard L} (h : tb.Interchangeable tb') (hw : tb.worktimeSource = "labels") (hw' : tb'.worktimeSource = "labels")
    (num : L → Option Rat) (d : Duty) (s : Option (Schedule L)) :
    (∀ w : Workshift L, w.worktime tb num d s = w.worktime tb' num d s) ∧ (∀ v : Interval L, v.worktime tb num d s = v.worktime tb' num d s) := by
  obtain ⟨hag, hd⟩ := h.facts
  constructor
  · intro w
    unfold Workshift.worktime
    simp only [hag.isOnDuty_eq, hag.isOffDuty_eq, hw, hw', if_true]
  · intro v
    unfold Interval.worktime
    simp only [hw, hw', if_true, hag.sumLabels_eq]

/-- **C82**, a timeboard of days is a timeboard of hours whose workshifts are days: labels given in turns to the base
units of a frequency, or to calendar periods of this frequency made of smaller base units, give the same workshifts when
both timeboards begin and end at the same time, with the same amendments. -/
theorem C82_base_unit {a : Args L} {heap : Heap L} {xs : List L} {freq : Freq} {start stop : Time} {F f : Frame}
    (hlay : a.layout = .pattern (.list xs)) (hx : xs ≠ [])
    (hF : Frame.new a.freq a.start a.stop = .ok F) (hf : Frame.new freq start stop = .ok f) (hc : checkGroupbyFreq freq a.freq = true)
    (hs : F.startTime = f.startTime) (he : F.endTime = f.endTime) {a' : Args L}
    (ha' : a' = { a with freq := freq, start := start, stop := stop, layout := .organizer (.marker ⟨a.freq, []⟩) (xs.map .label) }) :
    (∀ e, Timeboard.new a heap = .error e ↔ Timeboard.new a' heap = .error e) ∧
    ∀ tb tb' k k', Timeboard.new a heap = .ok (tb, k) → Timeboard.new a' heap = .ok (tb', k') → tb.Interchangeable tb' := by
  subst ha'
  by_cases hw : a.worktimeSource ∈ ["duration", "labels"]
  · obtain ⟨tb, tb', h1, h2, h3⟩ := Timeboard.base_unit_plain (a := { a with amendments := [] }) (heap := heap) (xs := xs)
      (a' := { a with freq := freq, start := start, stop := stop, layout := .organizer (.marker ⟨a.freq, []⟩) (xs.map .label), amendments := [] })
      rfl rfl hlay hx rfl hw hw rfl hF hf hc hs he
    obtain ⟨g1, g2⟩ := Timeboard.same_amended (a := a) 
      (a' := { a with freq := freq, start := start, stop := stop, layout := .organizer (.marker ⟨a.freq, []⟩) (xs.map .label) }) h1 h2 h3 rfl
    refine ⟨g1, ?_⟩
    intro x x' k k' hx hx'
    refine ⟨.new hx, .new hx', g2 _ _ _ _ hx hx', ?_, ?_⟩
    · obtain ⟨_, _, _, _, _, _, _, _, _, rfl⟩ := Timeboard.new_ok_iff.1 hx
      obtain ⟨_, _, _, _, _, _, _, _, _, rfl⟩ := Timeboard.new_ok_iff.1 hx'
      rfl
    · obtain ⟨_, _, _, _, _, _, _, _, _, rfl⟩ := Timeboard.new_ok_iff.1 hx
      obtain ⟨_, _, _, _, _, _, _, _, _, rfl⟩ := Timeboard.new_ok_iff.1 hx'
      rfl
  · have e1 : Timeboard.new a heap = .error .valueError := by
      unfold Timeboard.new
      rw [hlay]
      simp only [makeOrganizer, if_pos hw]
    have e2 : Timeboard.new { a with freq := freq, start := start, stop := stop, layout := .organizer (.marker ⟨a.freq, []⟩) (xs.map .label) } heap = .error .valueError := by
      unfold Timeboard.new
      simp only [makeOrganizer, if_pos hw]
    rw [e1, e2]
    exact ⟨fun e => by simp, fun _ _ _ _ h => by cases h⟩


/-! The hypotheses are met: ten days with one amendment, and the same ten days made of hours. -/
namespace Ex

def daysArgs : Args Int where
  freq := fD
  start := date 2017 1 2
  stop := date 2017 1 11
  layout := .pattern (.list [8, 8, 8, 8, 8, 0, 0])
  amendments := [(date 2017 1 4 + 15 * nsHour, 0)]
  selector := fun l => l != 0
  defaultLabel := 0

def daysOfHoursArgs : Args Int :=
  { daysArgs with
    freq := fH
    start := date 2017 1 2 + 7
    stop := date 2017 1 11 + 23 * nsHour
    layout := .organizer (.marker ⟨fD, []⟩) ([8, 8, 8, 8, 8, 0, 0].map .label) }

def days : Timeboard Int := board daysArgs (by decide +kernel)
def daysOfHours : Timeboard Int := board daysOfHoursArgs (by decide +kernel)

theorem days_interchangeable : days.Interchangeable daysOfHours := by
  obtain ⟨k, h⟩ := board_ok daysArgs (by decide +kernel)
  obtain ⟨k', h'⟩ := board_ok daysOfHoursArgs (by decide +kernel)
  exact (C82_base_unit (a := daysArgs) (a' := daysOfHoursArgs) (heap := heap0) (xs := [8, 8, 8, 8, 8, 0, 0]) (freq := fH)
    (start := date 2017 1 2 + 7) (stop := date 2017 1 11 + 23 * nsHour) (F := ⟨fD, fD.base.ordOf (date 2017 1 2), 10⟩)
    (f := ⟨fH, fH.base.ordOf (date 2017 1 2), 240⟩) rfl (by simp) (by rw [Frame.new_ok_iff]; decide +kernel) (by rw [Frame.new_ok_iff]; decide +kernel)
    (by decide +kernel) (by decide +kernel) (by decide +kernel) rfl).2 _ _ _ _ h h'

/- The work time measured by durations is told apart: seven days on duty, or 168 hours. -/
#guard ((days.getInterval none).bind (fun v => v.count days)).toOption == some 7 && ((days.getInterval none).bind (fun v => v.totalDuration days)).toOption == some 7
#guard ((daysOfHours.getInterval none).bind (fun v => v.count daysOfHours)).toOption == some 7 &&
  ((daysOfHours.getInterval none).bind (fun v => v.totalDuration daysOfHours)).toOption == some 168

end Ex

end TB
