import Verif.Lemmas.Timeboard
import Verif.Lemmas.Intervals
import Verif.Spec.SameTimes
/-! Timeboards which answer the elementary questions alike. -/
namespace TB
variable {L : Type}

/-- All lookups of times of the two timeboards agree. -/
structure Timeboard.TimesAgree (tb tb' : Timeboard L) : Prop where
  len : tb.timeline.wsIdx.length = tb'.timeline.wsIdx.length
  start : ∀ k, tb.timeline.wsStart k = tb'.timeline.wsStart k
  stop : ∀ k, tb.timeline.wsEnd k = tb'.timeline.wsEnd k
  ref : ∀ k, tb.timeline.wsRef k = tb'.timeline.wsRef k
  pos : ∀ t, tb.timeline.wsPosition t = tb'.timeline.wsPosition t
  startTime : tb.startTime = tb'.startTime
  endTime : tb.endTime = tb'.endTime

/-- All lookups of the two timeboards agree. -/
structure Timeboard.Agree (tb tb' : Timeboard L) : Prop extends tb.TimesAgree tb' where
  labels : tb.timeline.labels = tb'.timeline.labels

theorem Timeline.wsStart_ge {tl : Timeline L} {k : Int} (h1 : tl.len ≤ k) : tl.wsStart k = .error .indexError := by
  unfold Timeline.len at h1
  unfold Timeline.wsStart Timeline.firstBaseunit
  rw [pyGet?_ge _ h1]; rfl

theorem Timeline.wsEnd_ge {tl : Timeline L} {k : Int} (h1 : tl.len ≤ k) : tl.wsEnd k = .error .indexError := by
  unfold Timeline.len at h1
  unfold Timeline.wsEnd Timeline.lastBaseunit
  rw [pyGet?_ge _ h1]; rfl

theorem pyGet?_wrap {α : Type} (xs : List α) {i : Int} (h : i < 0) (h' : 0 ≤ i + xs.length) : pyGet? xs i = pyGet? xs (i + xs.length) := by
  rw [pyGet?_neg xs h h', pyGet?_lt xs h' (by omega)]

theorem Timeline.wsStart_neg {tl : Timeline L} {k : Int} (h0 : k < 0) (h1 : 0 ≤ k + tl.len) : tl.wsStart k = tl.wsStart (k + tl.len) := by
  unfold Timeline.len at *
  unfold Timeline.wsStart Timeline.firstBaseunit
  rw [pyGet?_wrap _ h0 h1]

theorem Timeline.wsStart_low {tl : Timeline L} {k : Int} (h1 : k + tl.len < 0) : tl.wsStart k = .error .indexError := by
  unfold Timeline.len at h1
  unfold Timeline.wsStart Timeline.firstBaseunit
  rw [pyGet?_low _ h1]; rfl

theorem Timeline.wsEnd_low {tl : Timeline L} {k : Int} (h1 : k + tl.len < 0) : tl.wsEnd k = .error .indexError := by
  unfold Timeline.len at h1
  unfold Timeline.wsEnd Timeline.lastBaseunit
  rw [pyGet?_low _ h1]; rfl

theorem Timeline.WF.wsEnd_neg {tl : Timeline L} (wf : tl.WF) {k : Int} (h0 : k < 0) (h1 : 0 ≤ k + tl.len) : tl.wsEnd k = tl.wsEnd (k + tl.len) := by
  rcases Int.lt_or_le k (-1) with hk | hk
  · unfold Timeline.len at *
    unfold Timeline.wsEnd Timeline.lastBaseunit
    rw [pyGet?_wrap _ h0 h1, pyGet?_wrap _ (i := k + 1) (by omega) (by omega), show k + 1 + (tl.wsIdx.length : Int) = k + tl.wsIdx.length + 1 by omega]
  · have hk : k = -1 := by omega
    subst hk
    have hn := wf.npos
    have e1 : tl.lastBaseunit (-1) = .ok (-1) := by
      unfold Timeline.lastBaseunit
      unfold Timeline.len at h1
      rw [pyGet?_neg _ h0 h1]
      obtain ⟨h, e⟩ := Timeline.bnd_lt (Int.le_refl 0) wf.len_pos
      rw [wf.bnd_zero] at e
      simp only [show (-1 : Int) + 1 = 0 from rfl]
      rw [pyGet?_lt _ (Int.le_refl 0) (by omega), ← e]
      rfl
    have e2 : tl.lastBaseunit (-1 + tl.len) = .ok ((tl.frame.n : Int) - 1) := by
      rw [wf.lastBaseunit_eq h1 (by omega), Timeline.bnd_ge (by omega)]
    have e3 : tl.frame.unitAt (-1) = tl.frame.unitAt ((tl.frame.n : Int) - 1) := by
      unfold Frame.unitAt
      rw [pyGet?_wrap _ (by omega) (by simp; omega)]
      simp only [List.length_map, List.length_range]
      rw [show (-1 : Int) + (tl.frame.n : Int) = (tl.frame.n : Int) - 1 by omega]
    unfold Timeline.wsEnd
    rw [e1, e2]
    show (do let u ← tl.frame.unitAt (-1); return tl.frame.unitEnd u) = (do let u ← tl.frame.unitAt ((tl.frame.n : Int) - 1); return tl.frame.unitEnd u)
    rw [e3]

theorem Timeline.WF.wsRef_neg {tl : Timeline L} (wf : tl.WF) {k : Int} (h0 : k < 0) (h1 : 0 ≤ k + tl.len) : tl.wsRef k = tl.wsRef (k + tl.len) := by
  unfold Timeline.wsRef
  rw [wf.wsEnd_neg h0 h1, Timeline.wsStart_neg h0 h1]

theorem Timeline.wsRef_low {tl : Timeline L} {k : Int} (h1 : k + tl.len < 0) : tl.wsRef k = .error .indexError := by
  unfold Timeline.wsRef
  rw [Timeline.wsEnd_low h1, Timeline.wsStart_low h1]; simp

theorem Timeboard.SameWorkshifts.agree {tb tb' : Timeboard L} (hv : tb.Valid) (hv' : tb'.Valid) (h : tb.SameWorkshifts tb') : tb.Agree tb' := by
  have wf := hv.wf
  have wf' := hv'.wf
  have hlen := h.number
  have facts : ∀ k, 0 ≤ k → k < tb.timeline.len → tb.timeline.label k = tb'.timeline.label k ∧
      tb.timeline.wsStart k = tb'.timeline.wsStart k ∧ tb.timeline.wsEnd k = tb'.timeline.wsEnd k ∧ tb.timeline.wsRef k = tb'.timeline.wsRef k := by
    intro k h0 h1
    obtain ⟨w, w', e1, e2, e3, e4, e5, e6⟩ := h.each k h0 h1
    obtain ⟨x, hx, x1, _, x2, _⟩ := Workshift.exists_of_range hv none h0 h1
    obtain ⟨y, hy, y1, _, y2, _⟩ := Workshift.exists_of_range hv' none h0 (hlen ▸ h1)
    rw [e1] at hx; cases hx
    rw [e2] at hy; cases hy
    unfold Workshift.startTime Workshift.endTime Workshift.toTimestamp at *
    rw [x1, y1] at e4 e5 e6
    exact ⟨by rw [x2, y2, e3], e4, e5, e6⟩
  have hll : tb.timeline.labels.length = tb.timeline.wsIdx.length := wf.labels_len
  have hll' : tb'.timeline.labels.length = tb'.timeline.wsIdx.length := wf'.labels_len
  have hl : tb.timeline.wsIdx.length = tb'.timeline.wsIdx.length := by unfold Timeline.len at hlen; omega
  have bnds : ∀ k, 0 ≤ k → k < tb.timeline.len → tb.timeline.frame.unitStart (tb.timeline.bnd k) = tb'.timeline.frame.unitStart (tb'.timeline.bnd k) ∧
      tb.timeline.frame.unitStart (tb.timeline.bnd (k + 1)) = tb'.timeline.frame.unitStart (tb'.timeline.bnd (k + 1)) := by
    intro k h0 h1
    obtain ⟨_, f1, f2, _⟩ := facts k h0 h1
    rw [wf.wsStart_eq h0 h1, wf'.wsStart_eq h0 (hlen ▸ h1)] at f1
    rw [wf.wsEnd_eq h0 h1, wf'.wsEnd_eq h0 (hlen ▸ h1)] at f2
    injection f1 with f1
    injection f2 with f2
    exact ⟨f1, by omega⟩
  have hpos := wf.len_pos
  have hstart : tb.startTime = tb'.startTime := by
    have := (bnds 0 (by omega) hpos).1
    rw [wf.bnd_zero, wf'.bnd_zero] at this
    exact this
  have hend : tb.endTime = tb'.endTime := by
    have := (bnds (tb.timeline.len - 1) (by omega) (by omega)).2
    rw [show tb.timeline.len - 1 + 1 = tb.timeline.len by omega] at this
    have e1 := wf.unitStart_bnd_len
    have e2 := wf'.unitStart_bnd_len
    rw [← hlen] at e2
    unfold Timeboard.endTime
    omega
  refine ⟨⟨hl, ?_, ?_, ?_, ?_, hstart, hend⟩, ?_⟩
  · intro k
    rcases Int.lt_or_le k tb.timeline.len with h1 | h1
    · rcases Int.lt_or_le k 0 with h0 | h0
      · rcases Int.lt_or_le (k + tb.timeline.len) 0 with h2 | h2
        · rw [Timeline.wsStart_low h2, Timeline.wsStart_low (hlen ▸ h2)]
        · rw [Timeline.wsStart_neg h0 h2, Timeline.wsStart_neg h0 (hlen ▸ h2), ← hlen]
          exact (facts _ h2 (by omega)).2.1
      · exact (facts k h0 h1).2.1
    · rw [Timeline.wsStart_ge h1, Timeline.wsStart_ge (hlen ▸ h1)]
  · intro k
    rcases Int.lt_or_le k tb.timeline.len with h1 | h1
    · rcases Int.lt_or_le k 0 with h0 | h0
      · rcases Int.lt_or_le (k + tb.timeline.len) 0 with h2 | h2
        · rw [Timeline.wsEnd_low h2, Timeline.wsEnd_low (hlen ▸ h2)]
        · rw [wf.wsEnd_neg h0 h2, wf'.wsEnd_neg h0 (hlen ▸ h2), ← hlen]
          exact (facts _ h2 (by omega)).2.2.1
      · exact (facts k h0 h1).2.2.1
    · rw [Timeline.wsEnd_ge h1, Timeline.wsEnd_ge (hlen ▸ h1)]
  · intro k
    rcases Int.lt_or_le k tb.timeline.len with h1 | h1
    · rcases Int.lt_or_le k 0 with h0 | h0
      · rcases Int.lt_or_le (k + tb.timeline.len) 0 with h2 | h2
        · rw [Timeline.wsRef_low h2, Timeline.wsRef_low (hlen ▸ h2)]
        · rw [wf.wsRef_neg h0 h2, wf'.wsRef_neg h0 (hlen ▸ h2), ← hlen]
          exact (facts _ h2 (by omega)).2.2.2
      · exact (facts k h0 h1).2.2.2
    · rw [Timeline.wsRef_ge h1, Timeline.wsRef_ge (hlen ▸ h1)]
  · intro t
    cases e : tb.timeline.wsPosition t with
    | ok k =>
      obtain ⟨k0, k1, k2, k3⟩ := (wf.wsPosition_ok_iff t k).1 e
      obtain ⟨b1, b2⟩ := bnds k k0 k1
      exact ((wf'.wsPosition_ok_iff t k).2 ⟨k0, hlen ▸ k1, by omega, by omega⟩).symm
    | error er =>
      obtain ⟨h1, h2⟩ := (wf.wsPosition_error_iff t er).1 e
      exact ((wf'.wsPosition_error_iff t er).2 ⟨h1, by
        unfold Timeboard.startTime at hstart
        unfold Timeboard.endTime at hend
        omega⟩).symm
  · apply List.ext_getElem (by omega)
    intro i h1 h2
    have := (facts i (by omega) (by unfold Timeline.len; omega)).1
    unfold Timeline.label pyGet? at this
    have hn : ¬ ((i : Int) < 0) := by omega
    simp [hn, h1, h2, orIndexError] at this
    exact this

namespace Timeboard.TimesAgree
variable {tb tb' : Timeboard L} (h : tb.TimesAgree tb')
include h

theorem len_eq : tb.timeline.len = tb'.timeline.len := by
  unfold Timeline.len; rw [h.len]

theorem index_eq : tb.timeline.index = tb'.timeline.index := by
  unfold Timeline.index; rw [h.len_eq]

theorem afterLoop_eq (t : Time) : ∀ (n : Nat) (c : Int), tb.timeline.afterLoop t n c = tb'.timeline.afterLoop t n c
  | 0, _ => rfl
  | n + 1, c => by
    unfold Timeline.afterLoop
    rw [h.ref c, afterLoop_eq t n (c + 1)]

theorem beforeLoop_eq (t : Time) : ∀ (n : Nat) (c : Int), tb.timeline.beforeLoop t n c = tb'.timeline.beforeLoop t n c
  | 0, _ => rfl
  | n + 1, c => by
    unfold Timeline.beforeLoop
    rw [h.ref c, beforeLoop_eq t n (c - 1)]

theorem after_eq (t : Time) : tb.timeline.posByRefAfter t = tb'.timeline.posByRefAfter t := by
  unfold Timeline.posByRefAfter
  simp only [h.pos t, h.len, h.afterLoop_eq]

theorem before_eq (t : Time) : tb.timeline.posByRefBefore t = tb'.timeline.posByRefBefore t := by
  unfold Timeline.posByRefBefore
  simp only [h.pos t, h.len, h.beforeLoop_eq]

theorem locate_eq (t : Time) (b : ByRef) : tb.locate t b = tb'.locate t b := by
  unfold Timeboard.locate
  simp only [h.pos, h.after_eq, h.before_eq, h.startTime, h.endTime]

theorem locsByPeriod_eq (p : Period) (clip dh dt : Bool) : tb.locsByPeriod p clip dh dt = tb'.locsByPeriod p clip dh dt := by
  unfold Timeboard.locsByPeriod
  simp only [h.locate_eq, h.len_eq]

theorem locsByLength_eq (ref : Option IvlRef) (n : Int) (dh dt : Bool) : tb.locsByLength ref n dh dt = tb'.locsByLength ref n dh dt := by
  unfold Timeboard.locsByLength
  simp only [h.locate_eq, h.len_eq]

theorem locsFromReference_eq (ref : Option IvlRef) (dh dt : Bool) : tb.locsFromReference ref dh dt = tb'.locsFromReference ref dh dt := by
  unfold Timeboard.locsFromReference
  simp only [h.locate_eq, h.len_eq]

theorem startTime_eq (v : Interval L) : v.startTime tb = v.startTime tb' := by
  unfold Interval.startTime
  simp only [h.start]

theorem endTime_eq (v : Interval L) : v.endTime tb = v.endTime tb' := by
  unfold Interval.endTime
  simp only [h.stop]

theorem make_some_eq (b : Int × Int) (s : Schedule L) (void : Bool) : Interval.make tb b (some s) void = Interval.make tb' b (some s) void := by
  unfold Interval.make handleBound
  simp only [h.len_eq, Option.getD_some]

theorem getInterval_some_eq (ref : Option IvlRef) (length : Option Int) (period : Option Freq) (clip : Bool) (closed : String)
    (s : Schedule L) : tb.getInterval ref length period clip closed (some s) = tb'.getInterval ref length period clip closed (some s) := by
  unfold Timeboard.getInterval Timeboard.intervalLocs Timeboard.finishInterval Interval.new
  simp only [h.locsByPeriod_eq, h.locsByLength_eq, h.locsFromReference_eq, h.make_some_eq]

theorem overlap_some_eq (v u : Interval L) (s : Option (Schedule L)) : v.overlap tb u s = v.overlap tb' u s := by
  unfold Interval.overlap Interval.new Interval.newVoid
  simp only [h.make_some_eq]

end Timeboard.TimesAgree

namespace Timeboard.Agree
variable {tb tb' : Timeboard L} (h : tb.Agree tb')
include h

theorem label_eq (k : Int) : tb.timeline.label k = tb'.timeline.label k := by
  unfold Timeline.label; rw [h.labels]

theorem schedule_eq (name : String) (sel : L → Bool) : Schedule.new tb.timeline name sel = Schedule.new tb'.timeline name sel := by
  unfold Schedule.new; rw [h.labels]

variable (hd : tb.defaultSchedule = tb'.defaultSchedule)
include hd

theorem workshift_eq (k : Int) (s : Option (Schedule L)) : Workshift.new tb k s = Workshift.new tb' k s := by
  unfold Workshift.new
  rw [h.label_eq, hd]

theorem getWorkshift_eq (t : Time) (s : Option (Schedule L)) : tb.getWorkshift t s = tb'.getWorkshift t s := by
  unfold Timeboard.getWorkshift
  simp only [h.locate_eq, h.workshift_eq hd]

theorem make_eq (b : Int × Int) (s : Option (Schedule L)) (void : Bool) : Interval.make tb b s void = Interval.make tb' b s void := by
  unfold Interval.make handleBound
  simp only [h.len_eq, hd]

theorem getInterval_eq (ref : Option IvlRef) (length : Option Int) (period : Option Freq) (clip : Bool) (closed : String)
    (s : Option (Schedule L)) : tb.getInterval ref length period clip closed s = tb'.getInterval ref length period clip closed s := by
  unfold Timeboard.getInterval Timeboard.intervalLocs Timeboard.finishInterval Interval.new
  simp only [h.locsByPeriod_eq, h.locsByLength_eq, h.locsFromReference_eq, h.make_eq hd]

theorem call1_eq (ref : IvlRef) : tb.call1 ref = tb'.call1 ref := by
  unfold Timeboard.call1
  simp only [h.getInterval_eq hd, h.getWorkshift_eq hd]

omit hd

theorem isOnDuty_eq (w : Workshift L) (s : Option (Schedule L)) : w.isOnDuty tb s = w.isOnDuty tb' s := by
  unfold Workshift.isOnDuty Schedule.isOnDuty
  rw [h.label_eq]

theorem isOffDuty_eq (w : Workshift L) (s : Option (Schedule L)) : w.isOffDuty tb s = w.isOffDuty tb' s := by
  unfold Workshift.isOffDuty Schedule.isOffDuty Schedule.isOnDuty
  rw [h.label_eq]

theorem dutyIndex_eq (w : Workshift L) (d : Duty) (s : Schedule L) : w.dutyIndex tb d s = w.dutyIndex tb' d s := by
  unfold Workshift.dutyIndex
  simp only [h.isOnDuty_eq, h.isOffDuty_eq, h.index_eq]

include hd

theorem workshiftAt_eq (idx : List Int) (i : Int) (s : Schedule L) : workshiftAt tb idx i s = workshiftAt tb' idx i s := by
  unfold workshiftAt
  simp only [h.workshift_eq hd]

theorem rollforward_eq (w : Workshift L) (n : Int) (d : Duty) (s : Option (Schedule L)) : w.rollforward tb n d s = w.rollforward tb' n d s := by
  unfold Workshift.rollforward
  simp only [h.dutyIndex_eq, h.workshiftAt_eq hd]

theorem rollback_eq (w : Workshift L) (n : Int) (d : Duty) (s : Option (Schedule L)) : w.rollback tb n d s = w.rollback tb' n d s := by
  unfold Workshift.rollback
  simp only [h.dutyIndex_eq, h.workshiftAt_eq hd]

omit hd

theorem dutyIdx_eq (v : Interval L) (d : Duty) (s : Schedule L) : v.dutyIdx tb d s = v.dutyIdx tb' d s := by
  unfold Interval.dutyIdx
  rw [h.index_eq]

theorem count_eq (v : Interval L) (d : Duty) (s : Option (Schedule L)) : v.count tb d s = v.count tb' d s := by
  unfold Interval.count
  simp only [h.dutyIdx_eq]

theorem sumLabels_eq (v : Interval L) (num : L → Option Rat) (d : Duty) (s : Option (Schedule L)) : v.sumLabels tb num d s = v.sumLabels tb' num d s := by
  unfold Interval.sumLabels
  simp only [h.dutyIdx_eq, h.label_eq]

include hd

theorem workshifts_eq (v : Interval L) (d : Duty) (s : Option (Schedule L)) : v.workshifts tb d s = v.workshifts tb' d s := by
  unfold Interval.workshifts
  simp only [h.dutyIdx_eq, h.workshift_eq hd]

theorem nth_eq (v : Interval L) (n : Int) (d : Duty) (s : Option (Schedule L)) : v.nth tb n d s = v.nth tb' n d s := by
  unfold Interval.nth
  simp only [h.dutyIdx_eq, h.workshiftAt_eq hd]

theorem overlap_eq (v u : Interval L) (s : Option (Schedule L)) : v.overlap tb u s = v.overlap tb' u s := by
  unfold Interval.overlap Interval.new Interval.newVoid
  simp only [h.make_eq hd]

theorem whatPortionOf_eq (v u : Interval L) (d : Duty) (s : Option (Schedule L)) : v.whatPortionOf tb u d s = v.whatPortionOf tb' u d s := by
  unfold Interval.whatPortionOf
  simp only [h.overlap_eq hd, h.count_eq]

theorem periodLoop_eq (f : Freq) (d : Duty) (s : Schedule L) : ∀ os : List Int, periodLoop tb f d s os = periodLoop tb' f d s os
  | [] => rfl
  | o :: os => by
    unfold periodLoop
    simp only [h.getInterval_eq hd, h.count_eq, periodLoop_eq f d s os]

theorem countPeriods_eq (v : Interval L) (f : Freq) (d : Duty) (s : Option (Schedule L)) : v.countPeriods tb f d s = v.countPeriods tb' f d s := by
  unfold Interval.countPeriods Interval.countPeriodsBody Interval.first Interval.last Workshift.toTimestamp
  simp only [h.periodLoop_eq hd, h.startTime_eq, h.endTime_eq, h.getInterval_eq hd, h.count_eq, h.nth_eq hd, h.ref]

end Timeboard.Agree

end TB
