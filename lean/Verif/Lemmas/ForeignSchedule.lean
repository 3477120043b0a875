import Verif.Spec.ForeignSchedule
import Verif.Lemmas.SameTimes
/-! Calculations with a schedule of another timeboard. -/
namespace TB
variable {L : Type}

/-- The timeboard with the labels and schedules of another one. -/
def Timeboard.relabelled (tb tb' : Timeboard L) : Timeboard L :=
  { timeline := { tb.timeline with labels := tb'.timeline.labels }, defaultSchedule := tb'.defaultSchedule, schedules := tb'.schedules
    worktimeSource := tb.worktimeSource }

theorem Timeboard.SameTimes.relabelled_valid {tb tb' : Timeboard L} (h : tb.SameTimes tb') (hv : tb.Valid) (hv' : tb'.Valid) : (tb.relabelled tb').Valid := by
  refine ⟨⟨hv.wf.npos, hv.wf.sorted, hv.wf.range, hv.wf.zero_mem, hv.wf.fb_len, hv.wf.fb, ?_⟩, hv'.default_owned, hv'.owned, hv'.names, hv.source⟩
  have e1 := hv'.wf.labels_len
  have e2 := h.number
  unfold Timeline.len at e2
  show tb'.timeline.labels.length = tb.timeline.wsIdx.length
  omega

theorem Timeboard.SameTimes.agree {tb tb' : Timeboard L} (h : tb.SameTimes tb') (hv : tb.Valid) (hv' : tb'.Valid) : (tb.relabelled tb').Agree tb' := by
  refine Timeboard.SameWorkshifts.agree (h.relabelled_valid hv hv') hv' ⟨h.number, ?_⟩
  intro k h0 h1
  have h1' : k < tb.timeline.len := h1
  obtain ⟨w, w', e1, e2, e3, e4, e5⟩ := h.each k h0 h1'
  obtain ⟨x, x1, x2, x3, x4, _⟩ := Workshift.exists_of_range (h.relabelled_valid hv hv') none h0 h1
  obtain ⟨y, y1, y2, y3, y4, _⟩ := Workshift.exists_of_range hv none h0 h1'
  obtain ⟨z, z1, z2, z3, z4, _⟩ := Workshift.exists_of_range hv' none h0 (h.number ▸ h1')
  rw [e1] at y1; cases y1
  rw [e2] at z1; cases z1
  refine ⟨x, w', x1, e2, ?_, ?_, ?_, ?_⟩
  · have : (tb.relabelled tb').timeline.label k = tb'.timeline.label k := rfl
    rw [this, z4] at x4
    injection x4 with x4
    exact x4.symm
  · unfold Workshift.startTime at e3 ⊢
    rw [x2]; rw [y2] at e3; exact e3
  · unfold Workshift.endTime at e4 ⊢
    rw [x2]; rw [y2] at e4; exact e4
  · unfold Workshift.toTimestamp at e5 ⊢
    rw [x2]; rw [y2] at e5; exact e5

theorem Timeboard.SameTimes.timesAgree {tb tb' : Timeboard L} (h : tb.SameTimes tb') (hv : tb.Valid) (hv' : tb'.Valid) : tb.TimesAgree tb' :=
  have g := h.agree hv hv'
  ⟨g.len, g.start, g.stop, g.ref, g.pos, g.startTime, g.endTime⟩

section
variable (tb tb' : Timeboard L) (s : Schedule L)

theorem Workshift.newUnder_eq (k : Int) : Workshift.newUnder tb'.timeline k s = Workshift.new tb' k (some s) := rfl

theorem Workshift.dutyIndexUnder_eq (w : Workshift L) (d : Duty) : w.dutyIndexUnder tb'.timeline d s = w.dutyIndex tb' d s := rfl

theorem Workshift.rollforwardUnder_eq (w : Workshift L) (n : Int) (d : Duty) :
    w.rollforwardUnder tb'.timeline n d s = w.rollforward tb' n d (some s) := rfl

theorem Workshift.rollbackUnder_eq (w : Workshift L) (n : Int) (d : Duty) : w.rollbackUnder tb'.timeline n d s = w.rollback tb' n d (some s) := rfl

theorem Interval.dutyIdxUnder_eq (v : Interval L) (d : Duty) : v.dutyIdxUnder tb'.timeline d s = v.dutyIdx tb' d s := rfl

theorem Interval.workshiftsUnder_eq (v : Interval L) (d : Duty) : v.workshiftsUnder tb'.timeline d s = v.workshifts tb' d (some s) := rfl

theorem Interval.nthUnder_eq (v : Interval L) (n : Int) (d : Duty) : v.nthUnder tb'.timeline n d s = v.nth tb' n d (some s) := rfl

theorem Interval.countUnder_eq (v : Interval L) (d : Duty) : v.countUnder tb'.timeline d s = v.count tb' d (some s) := rfl
end

theorem Interval.make_schedule {tb : Timeboard L} {b : Int × Int} {s : Schedule L} {void : Bool} {x : Interval L}
    (h : Interval.make tb b (some s) void = .ok x) : x.schedule = s := by
  unfold Interval.make at h
  grind

theorem Interval.overlap_schedule {tb : Timeboard L} {v u x : Interval L} {s : Schedule L} (h : v.overlap tb u (some s) = .ok x) : x.schedule = s := by
  unfold Interval.overlap Interval.new Interval.newVoid at h
  simp only [Option.getD_some] at h
  split at h
  · exact Interval.make_schedule h
  · split at h
    · exact Interval.make_schedule h
    · exact Interval.make_schedule h

namespace Timeboard.SameTimes
variable {tb tb' : Timeboard L} (h : tb.SameTimes tb') (hv : tb.Valid) (hv' : tb'.Valid)
include h hv hv'

theorem start_eq (w : Workshift L) : w.startTime tb = w.startTime tb' := (h.timesAgree hv hv').start w.loc
theorem end_eq (w : Workshift L) : w.endTime tb = w.endTime tb' := (h.timesAgree hv hv').stop w.loc
theorem ref_eq (w : Workshift L) : w.toTimestamp tb = w.toTimestamp tb' := (h.timesAgree hv hv').ref w.loc
theorem startTime_eq (v : Interval L) : v.startTime tb = v.startTime tb' := (h.timesAgree hv hv').startTime_eq v
theorem endTime_eq (v : Interval L) : v.endTime tb = v.endTime tb' := (h.timesAgree hv hv').endTime_eq v

theorem locate_eq (t : Time) : tb.locate t = tb'.locate t := (h.timesAgree hv hv').locate_eq t _

theorem getWorkshiftUnder_eq (t : Time) (s : Schedule L) : tb.getWorkshiftUnder tb'.timeline t s = tb'.getWorkshift t (some s) := by
  unfold Timeboard.getWorkshiftUnder Timeboard.getWorkshift
  rw [h.locate_eq hv hv']
  rfl

theorem getInterval_eq (ref : Option IvlRef) (length : Option Int) (period : Option Freq) (clip : Bool) (closed : String) (s : Schedule L) :
    tb.getInterval ref length period clip closed (some s) = tb'.getInterval ref length period clip closed (some s) :=
  (h.timesAgree hv hv').getInterval_some_eq ref length period clip closed s

theorem overlap_eq (v u : Interval L) (s : Option (Schedule L)) : v.overlap tb u s = v.overlap tb' u s := (h.timesAgree hv hv').overlap_some_eq v u s

theorem whatPortionOfUnder_eq (v u : Interval L) (d : Duty) (s : Schedule L) :
    v.whatPortionOfUnder tb tb'.timeline u d s = v.whatPortionOf tb' u d (some s) := by
  unfold Interval.whatPortionOfUnder Interval.whatPortionOf
  simp only [h.overlap_eq hv hv', Interval.countUnder_eq, Option.getD_some]
  split
  · rfl
  · cases e : v.overlap tb' u (some s) with
    | error _ => rfl
    | ok x =>
      have : x.count tb' d (some s) = x.count tb' d := by
        have := Interval.overlap_schedule e
        unfold Interval.count
        simp only [Option.getD_some, Option.getD_none, this]
      show (x.count tb' d (some s)).bind _ = (x.count tb' d).bind _
      rw [this]

theorem periodLoopUnder_eq (f : Freq) (d : Duty) (s : Schedule L) : ∀ os : List Int, periodLoopUnder tb tb'.timeline f d s os = periodLoop tb' f d s os
  | [] => rfl
  | o :: os => by
    unfold periodLoop periodLoopUnder
    simp only [h.getInterval_eq hv hv', Interval.countUnder_eq, periodLoopUnder_eq f d s os]
    rfl

theorem countPeriodsUnder_eq (v : Interval L) (f : Freq) (d : Duty) (s : Schedule L) :
    v.countPeriodsUnder tb tb'.timeline f d s = v.countPeriods tb' f d (some s) := by
  unfold Interval.countPeriodsUnder Interval.countPeriodsBodyUnder Interval.countPeriods Interval.countPeriodsBody Interval.first Interval.last
  simp only [h.periodLoopUnder_eq hv hv', h.startTime_eq hv hv', h.endTime_eq hv hv', h.getInterval_eq hv hv', Interval.countUnder_eq, Interval.nthUnder_eq,
    h.ref_eq hv hv', Option.getD_some]
  rfl

theorem bnd_eq (hf : tb.timeline.frame.freq = tb'.timeline.frame.freq) (k : Int) (h0 : 0 ≤ k) (h1 : k ≤ tb.timeline.len) : tb.timeline.bnd k = tb'.timeline.bnd k := by
  have g := h.timesAgree hv hv'
  have e0 : tb.timeline.frame.o0 = tb'.timeline.frame.o0 := by
    have e := g.startTime
    unfold Timeboard.startTime Frame.startTime Frame.unitStart Frame.ord at e
    rw [hf] at e
    simp only [Int.mul_zero, Int.add_zero] at e
    have l1 := tb'.timeline.frame.freq.base.startOf_lt_iff tb.timeline.frame.o0 tb'.timeline.frame.o0
    have l2 := tb'.timeline.frame.freq.base.startOf_lt_iff tb'.timeline.frame.o0 tb.timeline.frame.o0
    omega
  have eu : ∀ i, tb.timeline.frame.unitStart i = tb'.timeline.frame.unitStart i := by
    intro i
    unfold Frame.unitStart Frame.ord
    rw [hf, e0]
  have en : tb.timeline.frame.unitStart (tb.timeline.bnd k) = tb.timeline.frame.unitStart (tb'.timeline.bnd k) := by
    rcases Int.lt_or_eq_of_le h1 with hl | hl
    · have e := g.start k
      rw [hv.wf.wsStart_eq h0 hl, hv'.wf.wsStart_eq h0 (h.number ▸ hl)] at e
      injection e with e
      rw [e, eu]
    · have e := g.endTime
      unfold Timeboard.endTime at e
      have e1 := hv.wf.unitStart_bnd_len
      have e2 := hv'.wf.unitStart_bnd_len
      rw [hl, e1, h.number, eu, e2, e]
  rcases Int.lt_trichotomy (tb.timeline.bnd k) (tb'.timeline.bnd k) with hc | hc | hc
  · have := Frame.unitStart_lt (f := tb.timeline.frame) hc; omega
  · exact hc
  · have := Frame.unitStart_lt (f := tb.timeline.frame) hc; omega

theorem wsIdx_eq (hf : tb.timeline.frame.freq = tb'.timeline.frame.freq) : tb.timeline.wsIdx = tb'.timeline.wsIdx := by
  apply List.ext_getElem (h.timesAgree hv hv').len
  intro i h1 h2
  have e := h.bnd_eq hv hv' hf i (by omega) (by unfold Timeline.len; omega)
  obtain ⟨a1, a2⟩ := Timeline.bnd_lt (tl := tb.timeline) (k := i) (by omega) (by unfold Timeline.len; omega)
  obtain ⟨b1, b2⟩ := Timeline.bnd_lt (tl := tb'.timeline) (k := i) (by omega) (by unfold Timeline.len; omega)
  simpa [a2, b2] using e

theorem frameband_eq (hf : tb.timeline.frame.freq = tb'.timeline.frame.freq) : tb.timeline.frameband = tb'.timeline.frameband := by
  have ew := h.wsIdx_eq hv hv' hf
  have en : tb.timeline.frame.n = tb'.timeline.frame.n := by
    have e := h.bnd_eq hv hv' hf tb.timeline.len (Timeline.len_nonneg _) (Int.le_refl _)
    rw [Timeline.bnd_ge (Int.le_refl _), Timeline.bnd_ge (by rw [h.number]; exact Int.le_refl _)] at e
    omega
  apply List.ext_getElem (by rw [hv.wf.fb_len, hv'.wf.fb_len, en])
  intro i h1 h2
  obtain ⟨a1, a2, a3⟩ := hv.wf.fb i h1
  obtain ⟨b1, b2, b3⟩ := hv'.wf.fb i h2
  have := a3 _ (ew ▸ b1) b2
  have := b3 _ (ew ▸ a1) a2
  omega

theorem durationsFor_eq (hf : tb.timeline.frame.freq = tb'.timeline.frame.freq) (ks : List Int) : tb.timeline.durationsFor ks = tb'.timeline.durationsFor ks := by
  unfold Timeline.durationsFor Timeline.firstBaseunit
  rw [h.wsIdx_eq hv hv' hf, h.frameband_eq hv hv' hf]

theorem totalDurationUnder_eq (hf : tb.timeline.frame.freq = tb'.timeline.frame.freq) (v : Interval L) (d : Duty) (s : Schedule L) :
    v.totalDurationUnder tb tb'.timeline d s = v.totalDuration tb' d (some s) := by
  unfold Interval.totalDurationUnder Interval.totalDuration
  simp only [h.durationsFor_eq hv hv' hf, Interval.dutyIdxUnder_eq, Option.getD_some]
  rfl

theorem wsDuration_eq (hf : tb.timeline.frame.freq = tb'.timeline.frame.freq) (w : Workshift L) : w.duration tb = w.duration tb' := by
  have en : tb.timeline.frame.n = tb'.timeline.frame.n := by
    have := hv.wf.fb_len; have := hv'.wf.fb_len; have := h.frameband_eq hv hv' hf
    grind
  unfold Workshift.duration Timeline.wsDuration Timeline.lastBaseunit Timeline.firstBaseunit
  rw [h.wsIdx_eq hv hv' hf, en]

end Timeboard.SameTimes

end TB
