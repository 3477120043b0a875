import Verif.Lemmas.Timeboard
import Verif.Examples.Boards
/-! Properties C01, C02, C03, C37, C41, C42, C59: workshifts as a partition of time. -/
namespace TB
open TB.Ex
variable {L : Type}

/-- **C01.** The workshifts `0..N-1` of a timeboard (`N ≥ 1`) exist, are non-empty stretches of time, the first
one starts with the timeboard, each next one starts one nanosecond after the end of the previous one, the last one
ends with the timeboard. -/
theorem C01_workshifts_tile {tb : Timeboard L} (h : tb.Reachable) :
    0 < tb.timeline.len ∧
    (∀ k, 0 ≤ k → k < tb.timeline.len → ∃ w a b, Workshift.new tb k = .ok w ∧
      w.startTime tb = .ok a ∧ w.endTime tb = .ok b ∧ a ≤ b ∧
      (k = 0 → a = tb.startTime) ∧
      (k = tb.timeline.len - 1 → b = tb.endTime) ∧
      (k + 1 < tb.timeline.len → ∃ w', Workshift.new tb (k + 1) = .ok w' ∧ w'.startTime tb = .ok (b + 1))) := by
  have hv := h.valid
  have wf := hv.wf
  refine ⟨wf.len_pos, fun k h0 h1 => ?_⟩
  obtain ⟨w, hw, _, _, _, hs, he, _, _⟩ := Workshift.exists_of_range hv none h0 h1
  refine ⟨w, _, _, hw, hs, he, ?_, ?_, ?_, ?_⟩
  · have := Frame.unitStart_lt (f := tb.timeline.frame) (wf.bnd_lt_bnd h0 (by omega : k < k + 1) (by omega)); omega
  · rintro rfl; rw [wf.bnd_zero]; rfl
  · rintro rfl
    have : tb.timeline.len - 1 + 1 = tb.timeline.len := by omega
    rw [this, wf.unitStart_bnd_len]; unfold Timeboard.endTime; omega
  · intro h2
    obtain ⟨w', hw', _, _, _, hs', _⟩ := Workshift.exists_of_range hv none (show 0 ≤ k + 1 by omega) h2
    refine ⟨w', hw', ?_⟩
    rw [hs']
    congr 1; omega

example : shifts.timeline.len = 6 ∧
    (Workshift.new shifts 1).bind (fun w => w.startTime shifts) = .ok (date 2017 10 30 + 18 * nsHour) ∧
    (Workshift.new shifts 1).bind (fun w => w.endTime shifts) = .ok (date 2017 10 31 + 8 * nsHour - 1) := by
  decide +kernel
example : ∃ w a b, Workshift.new shifts 4 = .ok w ∧ w.startTime shifts = .ok a ∧ w.endTime shifts = .ok b ∧ a ≤ b := by
  obtain ⟨w, a, b, h1, h2, h3, h4, _⟩ := (C01_workshifts_tile shifts_reachable).2 4 (by decide) (by decide +kernel)
  exact ⟨w, a, b, h1, h2, h3, h4⟩

/-- **C02.** `get_workshift(t)` succeeds exactly for the points of the timeboard, returns a workshift that
contains the point, no other workshift contains it; for any other point the error is OutOfBoundsError. -/
theorem C02_get_workshift {tb : Timeboard L} (h : tb.Reachable) (t : Time) (sch : Option (Schedule L)) :
    (tb.startTime ≤ t ∧ t ≤ tb.endTime →
      ∃ w a b, tb.getWorkshift t sch = .ok w ∧ w.startTime tb = .ok a ∧ w.endTime tb = .ok b ∧ a ≤ t ∧ t ≤ b ∧
        0 ≤ w.loc ∧ w.loc < tb.timeline.len ∧
        ∀ k w' a' b', 0 ≤ k → k < tb.timeline.len → Workshift.new tb k = .ok w' → w'.startTime tb = .ok a' →
          w'.endTime tb = .ok b' → a' ≤ t → t ≤ b' → k = w.loc) ∧
    (¬ (tb.startTime ≤ t ∧ t ≤ tb.endTime) → tb.getWorkshift t sch = .error .outOfBounds) := by
  have hv := h.valid
  have wf := hv.wf
  have hl := hv.locate_none t
  constructor
  · rintro ⟨h1, h2⟩
    rcases hl with ⟨k, hk, hloc⟩ | ⟨h3, _⟩ | ⟨h3, _⟩
    · obtain ⟨hk0, hk1, hk2, hk3⟩ := (wf.wsPosition_ok_iff t k).1 hk
      obtain ⟨w, hw, hwl, _, _, hs, he, _, _⟩ := Workshift.exists_of_range hv sch hk0 hk1
      refine ⟨w, _, _, ?_, hs, he, hk2, by omega, by omega, by omega, ?_⟩
      · unfold Timeboard.getWorkshift; rw [hloc]; exact hw
      · intro k' w' a' b' hk0' hk1' hw' ha' hb' h5 h6
        obtain ⟨w'', hw'', _, _, _, hs'', he'', _, _⟩ := Workshift.exists_of_range hv none hk0' hk1'
        cases Workshift.ext_new hw' hw''
        rw [hs''] at ha'
        rw [he''] at hb'
        simp only [Except.ok.injEq] at ha' hb'
        have : tb.timeline.wsPosition t = .ok k' := (wf.wsPosition_ok_iff t k').2 ⟨hk0', hk1', by omega, by omega⟩
        rw [hk] at this
        simp only [Except.ok.injEq] at this
        omega
    · omega
    · omega
  · intro h1
    unfold Timeboard.getWorkshift
    rcases hl with ⟨k, hk, hloc⟩ | ⟨h3, h4⟩ | ⟨h3, h4⟩
    · have := wf.position_in_frame hk
      exact absurd this h1
    · rw [h4]
    · rw [h4]

example : (shifts.getWorkshift (date 2017 10 31 + 3 * nsHour)).map (fun w => (w.loc, w.label)) = .ok (1, 0) := by
  decide +kernel
example : shifts.startTime ≤ date 2017 10 31 ∧ date 2017 10 31 ≤ shifts.endTime := by decide +kernel
example : shifts.getWorkshift (date 2017 11 3) = .error .outOfBounds :=
  (C02_get_workshift shifts_reachable _ none).2 (by decide +kernel)

/-- **C03.** A timeboard begins with the calendar period of the base unit frequency containing `start`; there are
`n ≥ 1` base units, unit `i` begins with the period number `i * mult` after that one and lasts till the beginning of
the next unit; the last unit contains `stop` and ends with the timeboard. -/
theorem C03_frame_covers_range {a : Args L} {heap heap' : Heap L} {tb : Timeboard L}
    (h : Timeboard.new a heap = .ok (tb, heap')) :
    ∃ n : Nat, 0 < n ∧
      (let o := (Period.ofTime a.freq a.start).ord
       let unit := fun i : Int => ({ freq := a.freq, ord := o + a.freq.mult * i } : Period)
       (unit 0).startTime = tb.startTime ∧ (unit 0).startTime ≤ a.start ∧ a.start ≤ (unit 0).endTime ∧
       (∀ i, (unit (i + 1)).startTime = (unit i).endTime + 1) ∧
       (unit (n - 1)).endTime = tb.endTime ∧ (unit (n - 1)).startTime ≤ a.stop ∧ a.stop ≤ (unit (n - 1)).endTime) := by
  obtain ⟨org, frame, tl0, tl, h1, h2, h3, h4, h5, rfl⟩ := Timeboard.new_ok_iff.1 h
  have hn := Frame.new_valid h3
  have e1 : tl.frame = frame := by
    rw [(Timeline.amend_frame h5).1, (Timeline.new_wf hn h4).2.1]
  obtain ⟨ho, hf⟩ := Frame.new_ok_iff.1 h3
  have hm := a.freq.mult_pos
  have hadd : ∀ x y : Int, (a.freq.mult : Int) * (x + y) = a.freq.mult * x + a.freq.mult * y := fun x y => Int.mul_add _ _ _
  refine ⟨frame.n, hn, ?_⟩
  simp only [Period.startTime, Period.endTime, Period.ofTime, Timeboard.startTime, Timeboard.endTime, e1]
  subst hf
  have hstart := a.freq.base.startOf_le_self a.start
  have hend := a.freq.base.lt_startOf_succ a.start
  have hmono := fun x y => a.freq.base.startOf_le_startOf x y
  refine ⟨rfl, by simpa using hstart, ?_, ?_, ?_, ?_, ?_⟩
  · have := (hmono (a.freq.base.ordOf a.start + 1) (a.freq.base.ordOf a.start + a.freq.mult * 0 + a.freq.mult)).2 (by omega)
    omega
  · intro i
    have : a.freq.base.ordOf a.start + a.freq.mult * (i + 1) = a.freq.base.ordOf a.start + a.freq.mult * i + a.freq.mult := by
      rw [hadd]; omega
    rw [this]; omega
  · rfl
  · simp only
    rw [a.freq.base.startOf_le_iff]
    have hd := Int.mul_ediv_self_le (x := a.freq.base.ordOf a.stop - a.freq.base.ordOf a.start) (k := (a.freq.mult : Int)) (by omega)
    have hnn := Int.ediv_nonneg (a := a.freq.base.ordOf a.stop - a.freq.base.ordOf a.start) (b := (a.freq.mult : Int)) (by omega) (by omega)
    rw [Int.toNat_of_nonneg (by omega)]
    have : (a.freq.base.ordOf a.stop - a.freq.base.ordOf a.start) / (a.freq.mult : Int) + 1 - 1 = (a.freq.base.ordOf a.stop - a.freq.base.ordOf a.start) / (a.freq.mult : Int) := by omega
    rw [this]; omega
  · simp only
    have hlt : a.stop < a.freq.base.startOf (a.freq.base.ordOf a.start + (a.freq.mult : Int) * ((((a.freq.base.ordOf a.stop - a.freq.base.ordOf a.start) / (a.freq.mult : Int) + 1).toNat : Int) - 1) + a.freq.mult) := by
      rw [a.freq.base.lt_startOf_iff]
      have hd := Int.lt_mul_ediv_self_add (x := a.freq.base.ordOf a.stop - a.freq.base.ordOf a.start) (k := (a.freq.mult : Int)) (by omega)
      have hnn := Int.ediv_nonneg (a := a.freq.base.ordOf a.stop - a.freq.base.ordOf a.start) (b := (a.freq.mult : Int)) (by omega) (by omega)
      rw [Int.toNat_of_nonneg (by omega)]
      have : (a.freq.base.ordOf a.stop - a.freq.base.ordOf a.start) / (a.freq.mult : Int) + 1 - 1 = (a.freq.base.ordOf a.stop - a.freq.base.ordOf a.start) / (a.freq.mult : Int) := by omega
      rw [this]; omega
    omega

/-- **C03**, the error: whatever the layout, construction raises VoidIntervalError when the base period of `stop` precedes
that of `start` (the other arguments being of the right types), and a timeboard is only ever built when it does not;
for a layout which is a plain pattern this is the only error besides the one about amendments. -/
theorem C03_void_range {a : Args L} {heap : Heap L} :
    (a.freq.base.ordOf a.stop < a.freq.base.ordOf a.start → (makeOrganizer a.layout).isOk = true →
      a.worktimeSource ∈ ["duration", "labels"] → Timeboard.new a heap = .error .voidInterval) ∧
    (∀ tb heap', Timeboard.new a heap = .ok (tb, heap') → a.freq.base.ordOf a.start ≤ a.freq.base.ordOf a.stop) ∧
    (∀ xs, a.layout = .pattern (.list xs) → Timeboard.new a heap = .error .voidInterval →
      a.freq.base.ordOf a.stop < a.freq.base.ordOf a.start) := by
  refine ⟨?_, ?_, ?_⟩
  · intro h1 h2 h3
    have h4 := Frame.new_error_iff.2 ⟨rfl, h1⟩
    unfold Timeboard.new
    cases hm : makeOrganizer a.layout with
    | error e => rw [hm] at h2; cases h2
    | ok org => simp [h3, h4]
  · intro tb heap' h
    obtain ⟨org, frame, tl0, tl, h1, h2, h3, h4, h5, rfl⟩ := Timeboard.new_ok_iff.1 h
    exact (Frame.new_ok_iff.1 h3).1
  · intro xs hx h
    unfold Timeboard.new at h
    rw [hx] at h
    simp only [makeOrganizer] at h
    split at h
    · cases h
    · split at h
      · rename_i e he
        simp at h; subst h
        exact (Frame.new_error_iff.1 he).2
      · rename_i frame hf
        have hn := Frame.new_valid hf
        split at h
        · rename_i e he
          simp at h; subst h
          unfold Timeline.new at he
          simp only [Layout.run, Layout.runAll, Frame.cutSpan] at he
          have hcs : frame.partitionAtMarks { first := 0, last := (frame.n : Int) - 1 } [] =
              .ok [{ first := 0, last := (frame.n : Int) - 1 }] := by
            unfold Frame.partitionAtMarks
            unfold Frame.Valid at hn
            rw [Frame.createSubspans_ok_iff]
            refine ⟨by simp, by simp only; omega, by simp only; omega, ?_⟩
            simp [Frame.getLocVectorized, sortedSet, spansBetween]
          rw [hcs] at he
          simp only [zipRun, Cycle.start, Cycle.next, applyPattern] at he
          simp only [Int.lt_irrefl, if_false] at he
          split at he
          · rename_i e' he'
            split at he'
            · rename_i e'' he''
              split at he'' <;> cases he''
            · cases he'
          · cases he
        · rename_i tl0 heap'' htl
          split at h
          · rename_i e he
            simp at h; subst h
            have := ((Timeline.new_wf hn htl).1.amend_error_iff.1 he).1
            cases this
          · cases h

/-- The 2-day units from Sunday 1 January 2017. -/
def twoDayArgs : Args Int where
  freq := ⟨some 2, .D, by decide⟩
  start := date 2017 1 1 + 5 * nsHour
  stop := date 2017 1 6
  layout := .pattern (.list [1, 2])
  selector := fun l => l != 0
  defaultLabel := 0
example : (Timeboard.new twoDayArgs heap0).isOk = true ∧
    (board twoDayArgs (by decide +kernel)).startTime = date 2017 1 1 ∧
    (board twoDayArgs (by decide +kernel)).endTime = date 2017 1 7 - 1 := by decide +kernel
example : (Timeboard.new { twoDayArgs with stop := date 2016 12 31 } heap0) = .error .voidInterval :=
  C03_void_range.1 (by decide +kernel) (by decide +kernel) (by decide +kernel)

/-- **C37.** Both searches by reference time terminate (the model's bound on the number of rounds is never hit)
with the nearest workshift: forward the earliest one with reference time ≥ the point, backward the latest one with
reference time ≤ the point; OutOfBoundsError exactly when there is none or the point is off the timeboard. -/
theorem C37_search_by_reference {tb : Timeboard L} (h : tb.Reachable) (t : Time) :
    (∀ k, tb.timeline.posByRefAfter t = .ok k ↔
      (tb.startTime ≤ t ∧ t ≤ tb.endTime ∧ 0 ≤ k ∧ k < tb.timeline.len ∧
        (∃ r, tb.timeline.wsRef k = .ok r ∧ t ≤ r) ∧
        ∀ j, 0 ≤ j → j < k → ∃ r, tb.timeline.wsRef j = .ok r ∧ r < t)) ∧
    (∀ e, tb.timeline.posByRefAfter t = .error e ↔
      (e = .outOfBounds ∧ (t < tb.startTime ∨ tb.endTime < t ∨
        ∀ j, 0 ≤ j → j < tb.timeline.len → ∃ r, tb.timeline.wsRef j = .ok r ∧ r < t))) ∧
    (∀ k, tb.timeline.posByRefBefore t = .ok k ↔
      (tb.startTime ≤ t ∧ t ≤ tb.endTime ∧ 0 ≤ k ∧ k < tb.timeline.len ∧
        (∃ r, tb.timeline.wsRef k = .ok r ∧ r ≤ t) ∧
        ∀ j, k < j → j < tb.timeline.len → ∃ r, tb.timeline.wsRef j = .ok r ∧ t < r)) ∧
    (∀ e, tb.timeline.posByRefBefore t = .error e ↔
      (e = .outOfBounds ∧ (t < tb.startTime ∨ tb.endTime < t ∨
        ∀ j, 0 ≤ j → j < tb.timeline.len → ∃ r, tb.timeline.wsRef j = .ok r ∧ t < r))) := by
  have wf := h.valid.wf
  have key : ∀ j, 0 ≤ j → j < tb.timeline.len → ∀ P : Time → Prop,
      ((∃ r, tb.timeline.wsRef j = .ok r ∧ P r) ↔ P (tb.timeline.refTime j)) := by
    intro j h0 h1 P
    rw [wf.wsRef_eq h0 h1]
    simp
  refine ⟨?_, ?_, ?_, ?_⟩
  · intro k
    rw [wf.posByRefAfter_ok_iff]
    constructor
    · rintro ⟨h1, h2, h3, h4, h5, h6⟩
      exact ⟨h1, h2, h3, h4, (key k h3 h4 _).2 h5, fun j hj0 hj1 => (key j hj0 (by omega) _).2 (h6 j hj0 hj1)⟩
    · rintro ⟨h1, h2, h3, h4, h5, h6⟩
      exact ⟨h1, h2, h3, h4, (key k h3 h4 _).1 h5, fun j hj0 hj1 => (key j hj0 (by omega) (fun r => r < t)).1 (h6 j hj0 hj1)⟩
  · intro e
    rw [wf.posByRefAfter_error_iff]
    have : (∀ j, 0 ≤ j → j < tb.timeline.len → tb.timeline.refTime j < t) ↔
        (∀ j, 0 ≤ j → j < tb.timeline.len → ∃ r, tb.timeline.wsRef j = .ok r ∧ r < t) :=
      ⟨fun hh j h0 h1 => (key j h0 h1 _).2 (hh j h0 h1), fun hh j h0 h1 => (key j h0 h1 (fun r => r < t)).1 (hh j h0 h1)⟩
    rw [this]; rfl
  · intro k
    rw [wf.posByRefBefore_ok_iff]
    constructor
    · rintro ⟨h1, h2, h3, h4, h5, h6⟩
      exact ⟨h1, h2, h3, h4, (key k h3 h4 _).2 h5, fun j hj0 hj1 => (key j (by omega) hj1 _).2 (h6 j hj0 hj1)⟩
    · rintro ⟨h1, h2, h3, h4, h5, h6⟩
      exact ⟨h1, h2, h3, h4, (key k h3 h4 (fun r => r ≤ t)).1 h5, fun j hj0 hj1 => (key j (by omega) hj1 (fun r => t < r)).1 (h6 j hj0 hj1)⟩
  · intro e
    rw [wf.posByRefBefore_error_iff]
    have : (∀ j, 0 ≤ j → j < tb.timeline.len → t < tb.timeline.refTime j) ↔
        (∀ j, 0 ≤ j → j < tb.timeline.len → ∃ r, tb.timeline.wsRef j = .ok r ∧ t < r) :=
      ⟨fun hh j h0 h1 => (key j h0 h1 _).2 (hh j h0 h1), fun hh j h0 h1 => (key j h0 h1 (fun r => t < r)).1 (hh j h0 h1)⟩
    rw [this]; rfl

/- the shifts are referred to by their ends: the point 31 October 3:00 is in shift 1, which ends at 8:00 -/
example : shifts.timeline.posByRefAfter (date 2017 10 31 + 3 * nsHour) = .ok 1 ∧
    shifts.timeline.posByRefBefore (date 2017 10 31 + 3 * nsHour) = .ok 0 ∧
    shifts.timeline.posByRefBefore (date 2017 10 30 + 9 * nsHour) = .error .outOfBounds := by decide +kernel

/-- **C41.** What holds: the constructor of Workshift accepts every position on the timeline and gives a workshift with
this position, and raises OutOfBoundsError for every `n ≥ N` and every `n < -N`.
The full claim `Workshift(tb, n)` succeeds iff `0 ≤ n < N` is false: see `C41_negative_accepted`. -/
theorem C41_workshift_constructor_partial {tb : Timeboard L} (h : tb.Reachable) (n : Int) (sch : Option (Schedule L)) :
    (0 ≤ n ∧ n < tb.timeline.len → ∃ w, Workshift.new tb n sch = .ok w ∧ w.loc = n) ∧
    (tb.timeline.len ≤ n ∨ n < - tb.timeline.len → Workshift.new tb n sch = .error .outOfBounds) := by
  have hv := h.valid
  constructor
  · rintro ⟨h0, h1⟩
    obtain ⟨l, _, hw⟩ := Workshift.new_ok_of_range hv sch h0 h1
    exact ⟨_, hw, rfl⟩
  · intro hn
    have hl := hv.wf.labels_len
    unfold Workshift.new Timeline.label
    have : pyGet? tb.timeline.labels n = none := by
      unfold Timeline.len at hn
      rcases hn with hn | hn
      · exact pyGet?_ge _ (by omega)
      · exact pyGet?_low _ (by omega)
    rw [this]; rfl

/-- **C41**, the negation: positions `-N..-1` are accepted for every timeboard, the position is kept negative. -/
theorem C41_negative_accepted {tb : Timeboard L} (h : tb.Reachable) (n : Int) (h0 : - tb.timeline.len ≤ n) (h1 : n < 0)
    (sch : Option (Schedule L)) : ∃ w, Workshift.new tb n sch = .ok w ∧ w.loc = n := by
  have hl := h.valid.wf.labels_len
  unfold Workshift.new Timeline.label
  rw [pyGet?_neg _ h1 (by unfold Timeline.len at h0; omega)]
  exact ⟨_, rfl, rfl⟩

/- the last of the six shifts lasts 14 hours, but as number -1 it has duration -58 -/
example : (Workshift.new shifts 5).bind (fun w => w.duration shifts) = .ok 14 ∧
    (Workshift.new shifts (-1)).bind (fun w => w.duration shifts) = .ok (-58) := by decide +kernel
theorem C41_negation : ¬ ∀ (tb : Timeboard Int), tb.Reachable → ∀ n : Int,
    ((∃ w, Workshift.new tb n none = .ok w) ↔ (0 ≤ n ∧ n < tb.timeline.len)) := by
  intro hall
  obtain ⟨w, hw, _⟩ := C41_negative_accepted shifts_reachable (-1) (by decide +kernel) (by decide) none
  have := (hall shifts shifts_reachable (-1)).1 ⟨w, hw⟩
  omega

/-- **C59.** `Interval(tb, (i, j))`. -/
theorem C59_interval_constructor {tb : Timeboard L} (i j : Int) (sch : Option (Schedule L)) :
    ((0 ≤ i ∧ i ≤ j ∧ j < tb.timeline.len) ↔ (Interval.new tb (i, j) sch).isOk = true) ∧
    (∀ v, Interval.new tb (i, j) sch = .ok v → v.lo = i ∧ v.hi = j ∧ v.len = j - i + 1 ∧ v.isVoid = false) ∧
    (¬ (0 ≤ i ∧ i < tb.timeline.len ∧ 0 ≤ j ∧ j < tb.timeline.len) → Interval.new tb (i, j) sch = .error .outOfBounds) ∧
    (0 ≤ i ∧ i < tb.timeline.len ∧ 0 ≤ j ∧ j < i → Interval.new tb (i, j) sch = .error .voidInterval) := by
  refine ⟨?_, ?_, ?_, ?_⟩
  · constructor
    · rintro ⟨h1, h2, h3⟩
      rw [Interval.new_ok_iff.2 ⟨h1, h2, h3, rfl⟩]; rfl
    · intro h
      cases hn : Interval.new tb (i, j) sch with
      | error e => rw [hn] at h; cases h
      | ok v => have := Interval.new_ok_iff.1 hn; exact ⟨this.1, this.2.1, this.2.2.1⟩
  · intro v hv
    obtain ⟨h1, h2, h3, rfl⟩ := Interval.new_ok_iff.1 hv
    exact ⟨rfl, rfl, rfl, rfl⟩
  · intro h; exact Interval.new_error_iff.2 (.inl ⟨rfl, h⟩)
  · intro h; exact Interval.new_error_iff.2 (.inr ⟨rfl, by omega, by omega, by omega, by omega, by omega⟩)

example : (Interval.new week (3, 9)).map (fun v => v.len) = .ok 7 ∧
    (Interval.new week (3, 31)).map (fun v => v.len) = .error .outOfBounds ∧
    (Interval.new week (3, 2)).map (fun v => v.len) = .error .voidInterval := by decide +kernel

theorem sum_bnd {tl : Timeline L} (wf : tl.WF) (n : Nat) : (n : Int) ≤ tl.len →
    ((intRange 0 n).map (fun k => tl.bnd (k + 1) - tl.bnd k)).sum = tl.bnd n := by
  induction n with
  | zero => intro _; simp [intRange, wf.bnd_zero]
  | succ n ih =>
    intro h
    have e : intRange 0 ((n + 1 : Nat) : Int) = intRange 0 n ++ [(n : Int)] := by
      unfold intRange
      have : (((n + 1 : Nat) : Int) - 0).toNat = n + 1 := by omega
      rw [this, List.range_succ]
      simp
    rw [e, List.map_append, List.sum_append, ih (by omega)]
    simp only [List.map_cons, List.map_nil, List.sum_cons, List.sum_nil]
    have : ((n + 1 : Nat) : Int) = (n : Int) + 1 := by omega
    rw [this]; omega

/-- **C42.** For each workshift: duration at least 1, reference time within the workshift, the workshift is found again by its
start, end and reference time; all durations add up to the number of base units. -/
theorem C42_durations_and_times {tb : Timeboard L} (h : tb.Reachable) :
    (∀ k, 0 ≤ k → k < tb.timeline.len → ∃ w d a r b, Workshift.new tb k = .ok w ∧ w.duration tb = .ok d ∧ 1 ≤ d ∧
      w.startTime tb = .ok a ∧ w.toTimestamp tb = .ok r ∧ w.endTime tb = .ok b ∧ a ≤ r ∧ r ≤ b ∧
      (r = a ∨ r = b) ∧
      tb.getWorkshift a = .ok w ∧ tb.getWorkshift r = .ok w ∧ tb.getWorkshift b = .ok w) ∧
    (∃ ds, (intRange 0 tb.timeline.len).mapM (fun k => tb.timeline.wsDuration k) = .ok ds ∧ ds.sum = tb.timeline.frame.n) := by
  have hv := h.valid
  have wf := hv.wf
  constructor
  · intro k h0 h1
    obtain ⟨w, hw, _, _, _, hs, he, hrr, hdur⟩ := Workshift.exists_of_range hv none h0 h1
    have hb := wf.bnd_lt_bnd h0 (by omega : k < k + 1) (by omega)
    have hu := Frame.unitStart_lt (f := tb.timeline.frame) hb
    have hr := wf.refTime_within h0 h1
    have hget : ∀ t, tb.timeline.frame.unitStart (tb.timeline.bnd k) ≤ t → t < tb.timeline.frame.unitStart (tb.timeline.bnd (k + 1)) →
        tb.getWorkshift t = .ok w := by
      intro t h2 h3
      have hp := (wf.wsPosition_ok_iff t k).2 ⟨h0, h1, h2, h3⟩
      rw [hv.getWorkshift_of_within hp]; exact hw
    refine ⟨w, _, _, _, _, hw, hdur, by omega, hs, hrr, he,
      hr.1, by omega, ?_, hget _ (by omega) (by omega), hget _ hr.1 hr.2, hget _ (by omega) (by omega)⟩
    unfold Timeline.refTime
    split
    · right; rfl
    · left; rfl
  · have hm : ∀ ks : List Int, (∀ k ∈ ks, 0 ≤ k ∧ k < tb.timeline.len) →
        ks.mapM (fun k => tb.timeline.wsDuration k) = .ok (ks.map (fun k => tb.timeline.bnd (k + 1) - tb.timeline.bnd k)) := by
      intro ks
      induction ks with
      | nil => intro _; rfl
      | cons k ks ih =>
        intro hk
        have h1 := hk k (by simp)
        rw [List.mapM_cons, ih (fun x hx => hk x (by simp [hx])), wf.wsDuration_eq h1.1 h1.2]
        rfl
    refine ⟨_, hm _ (fun k hk => by rw [mem_intRange] at hk; exact hk), ?_⟩
    have := sum_bnd wf tb.timeline.wsIdx.length (by unfold Timeline.len; omega)
    rw [show ((tb.timeline.wsIdx.length : Nat) : Int) = tb.timeline.len from rfl] at this
    rw [this, tb.timeline.bnd_ge (Int.le_refl _)]

example : (intRange 0 6).mapM (fun k => shifts.timeline.wsDuration k) = .ok [10, 14, 10, 14, 10, 14] ∧
    shifts.timeline.frame.n = 72 ∧
    (Workshift.new shifts 3).bind (fun w => w.toTimestamp shifts) = .ok (date 2017 11 1 + 8 * nsHour - 1) := by decide +kernel

end TB
