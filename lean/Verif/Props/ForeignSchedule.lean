import Verif.Lemmas.ForeignSchedule
import Verif.Lemmas.WorkingDays
import Verif.Props.Foreign
/-! Property C106: schedules of another timeboard. -/
namespace TB
variable {L : Type}

/-- **C106**, workshifts: let the workshifts of two timeboards be at the same times. With a schedule of the second one, the first timeboard finds the workshifts
which the second one finds; they have the same times on both; their duty is the one on the second timeboard, and rolling leads to the same workshifts. -/
theorem C106_workshifts {tb tb' : Timeboard L} (h : tb.Reachable) (h' : tb'.Reachable) (hs : tb.SameTimes tb') (s : Schedule L) :
    (∀ t, tb.getWorkshiftUnder tb'.timeline t s = tb'.getWorkshift t (some s)) ∧
    (∀ w : Workshift L, w.startTime tb = w.startTime tb' ∧ w.endTime tb = w.endTime tb' ∧ w.toTimestamp tb = w.toTimestamp tb') ∧
    (∀ w : Workshift L, w.isOnDutyUnder tb'.timeline s = w.isOnDuty tb' (some s) ∧ w.isOffDutyUnder tb'.timeline s = w.isOffDuty tb' (some s)) ∧
    (∀ (w : Workshift L) n d, w.rollforwardUnder tb'.timeline n d s = w.rollforward tb' n d (some s) ∧
      w.rollbackUnder tb'.timeline n d s = w.rollback tb' n d (some s)) :=
  ⟨fun t => hs.getWorkshiftUnder_eq h.valid h'.valid t s,
    fun w => ⟨hs.start_eq h.valid h'.valid w, hs.end_eq h.valid h'.valid w, hs.ref_eq h.valid h'.valid w⟩,
    fun _ => ⟨rfl, rfl⟩, fun _ _ _ => ⟨rfl, rfl⟩⟩

/-- Intervals with the same start and end on timeboards with workshifts at the same times have the same workshifts. -/
theorem Timeboard.SameTimes.ends {tb tb' : Timeboard L} (hs : tb.SameTimes tb') (hv : tb.Valid) (hv' : tb'.Valid) {v v' : Interval L} (hp : v.Proper tb)
    (hp' : v'.Proper tb') (e1 : v.startTime tb = v'.startTime tb') (e2 : v.endTime tb = v'.endTime tb') :
    v = { v' with schedule := v.schedule } := by
  have a0 := hp.lo_nonneg
  have a1 := hp.lo_le_hi
  have a2 := hp.hi_lt
  have b0 := hp'.lo_nonneg
  have b1 := hp'.lo_le_hi
  have b2 := hp'.hi_lt
  have c1 := hp.length_eq
  have c2 := hp'.length_eq
  have n := hs.number
  rw [hs.startTime_eq hv hv'] at e1
  rw [hs.endTime_eq hv hv'] at e2
  unfold Interval.startTime at e1
  unfold Interval.endTime at e2
  simp only [hp.not_void, hp'.not_void, Bool.false_eq_true, if_false] at e1 e2
  rw [hv'.wf.wsStart_eq a0 (by omega), hv'.wf.wsStart_eq b0 (by omega)] at e1
  rw [hv'.wf.wsEnd_eq (by omega) (by omega), hv'.wf.wsEnd_eq (by omega) (by omega)] at e2
  injection e1 with e1; injection e1 with e1
  injection e2 with e2; injection e2 with e2
  have u1 := Frame.unitStart_lt_iff (f := tb'.timeline.frame) (i := tb'.timeline.bnd v.lo) (j := tb'.timeline.bnd v'.lo)
  have u2 := Frame.unitStart_lt_iff (f := tb'.timeline.frame) (i := tb'.timeline.bnd v'.lo) (j := tb'.timeline.bnd v.lo)
  have u3 := Frame.unitStart_lt_iff (f := tb'.timeline.frame) (i := tb'.timeline.bnd (v.hi + 1)) (j := tb'.timeline.bnd (v'.hi + 1))
  have u4 := Frame.unitStart_lt_iff (f := tb'.timeline.frame) (i := tb'.timeline.bnd (v'.hi + 1)) (j := tb'.timeline.bnd (v.hi + 1))
  rw [hv'.wf.bnd_lt_iff (by omega) (by omega) (by omega) (by omega)] at u1 u2 u3 u4
  have k1 : v.lo = v'.lo := by omega
  have k2 : v.hi = v'.hi := by omega
  have k3 : v.length = v'.length := by omega
  have k4 : v.isVoid = v'.isVoid := by rw [hp.not_void, hp'.not_void]
  cases v; cases v'
  simp_all

/-- **C106**, intervals: an interval of the first timeboard and the one with the same start and end of the second timeboard have, with a schedule of the second
timeboard, the same workshifts, counts, portions and numbers of periods. -/
theorem C106_intervals {tb tb' : Timeboard L} (h : tb.Reachable) (h' : tb'.Reachable) (hs : tb.SameTimes tb') {v v' : Interval L} (hi : tb.HasInterval v)
    (hi' : tb'.HasInterval v') (hn : v.isVoid = false) (hn' : v'.isVoid = false) (e1 : v.startTime tb = v'.startTime tb')
    (e2 : v.endTime tb = v'.endTime tb') (s : Schedule L) (d : Duty) :
    v.workshiftsUnder tb'.timeline d s = v'.workshifts tb' d (some s) ∧
    (∀ n, v.nthUnder tb'.timeline n d s = v'.nth tb' n d (some s)) ∧
    v.countUnder tb'.timeline d s = v'.count tb' d (some s) ∧
    (∀ f, v.countPeriodsUnder tb tb'.timeline f d s = v'.countPeriods tb' f d (some s)) ∧
    (∀ u, v.overlap tb u (some s) = v'.overlap tb' u (some s) ∧
      v.whatPortionOfUnder tb tb'.timeline u d s = v'.whatPortionOf tb' u d (some s)) ∧
    (∀ u : Interval L, u.whatPortionOfUnder tb tb'.timeline v d s = u.whatPortionOf tb' v' d (some s)) := by
  have hv := h.valid
  have hv' := h'.valid
  have hp : v.Proper tb := (hi.fine hv).shape.resolve_right (fun q => by rw [q.void] at hn; cases hn)
  have hp' : v'.Proper tb' := (hi'.fine hv').shape.resolve_right (fun q => by rw [q.void] at hn'; cases hn')
  have e := hs.ends hv hv' hp hp' e1 e2
  generalize hsch : v.schedule = sc at e
  subst e
  refine ⟨rfl, fun _ => rfl, rfl, fun f => ?_, fun u => ⟨?_, ?_⟩, fun u => ?_⟩
  · rw [hs.countPeriodsUnder_eq hv hv']; rfl
  · rw [hs.overlap_eq hv hv']; rfl
  · rw [hs.whatPortionOfUnder_eq hv hv']; rfl
  · rw [hs.whatPortionOfUnder_eq hv hv']; rfl

/-- **C106**, intervals found: with a schedule of the second timeboard `get_interval` gives the same interval, or the same error, on both timeboards. -/
theorem C106_get_interval {tb tb' : Timeboard L} (h : tb.Reachable) (h' : tb'.Reachable) (hs : tb.SameTimes tb') (ref : Option IvlRef) (length : Option Int)
    (period : Option Freq) (clip : Bool) (closed : String) (s : Schedule L) :
    tb.getInterval ref length period clip closed (some s) = tb'.getInterval ref length period clip closed (some s) ∧
    ∀ v : Interval L, v.startTime tb = v.startTime tb' ∧ v.endTime tb = v.endTime tb' :=
  ⟨hs.getInterval_eq h.valid h'.valid ref length period clip closed s, fun v => ⟨hs.startTime_eq h.valid h'.valid v, hs.endTime_eq h.valid h'.valid v⟩⟩

theorem sumNums_all {num : L → Option Rat} {q : L → Rat} (hq : ∀ l, num l = some (q l)) : ∀ ls : List L, sumNums num ls = .ok (ls.map q).sum
  | [] => rfl
  | l :: ls => by
    unfold sumNums
    rw [hq, sumNums_all hq ls]
    simp

/-- The positions with the duty, looked up in the first timeboard. -/
theorem Timeboard.SameTimes.positions {tb tb' : Timeboard L} (hs : tb.SameTimes tb') (hv : tb.Valid) (hv' : tb'.Valid) {v : Interval L} (fv : v.Fine tb)
    (hn : v.isVoid = false) {s : Schedule L} (ho : tb'.Owns s) {d : Duty} (hd : d = .on ∨ d = .off ∨ d = .any) :
    ∃ ws us : List (Workshift L), v.workshiftsUnder tb'.timeline d s = .ok ws ∧ us.map (fun u => u.loc) = ws.map (fun w => w.loc) ∧
      (∀ u ∈ us, Workshift.new tb u.loc = .ok u) ∧ (∀ k, (∃ u ∈ us, u.loc = k) ↔ v.Contains tb k ∧ tb'.DutyAt s d k) ∧
      ((us = [] ∧ ∃ idx, v.dutyIdxUnder tb'.timeline d s = .ok (idx, none)) ∨
        ∃ idx a b, v.dutyIdxUnder tb'.timeline d s = .ok (idx, some (a, b)) ∧ slice idx a b = us.map (fun u => u.loc) ∧
          (slice idx a b).mapM (fun i => tb.timeline.label i) = .ok (us.map (fun u => u.label))) := by
  have hp : v.Proper tb := fv.shape.resolve_right (fun q => by rw [q.void] at hn; cases hn)
  have hp' : v.Proper tb' := ⟨hp.lo_nonneg, hp.lo_le_hi, hs.number ▸ hp.hi_lt, hp.not_void, hp.length_eq⟩
  have h0 := hp.lo_nonneg
  have h1 := hp.hi_lt
  obtain ⟨ws, w1, w2, _⟩ := hp'.workshifts_spec hv' (sch := some s) ho hd
  have hmem : ∀ k, k ∈ tb'.dutyPositions s.selector d v.lo v.hi ↔ (v.lo ≤ k ∧ k ≤ v.hi ∧ tb'.DutyAt s d k) :=
    hv'.mem_dutyPositions_iff h0 hp'.hi_lt
  have hex : ∀ ks : List Int, (∀ k ∈ ks, 0 ≤ k ∧ k < tb.timeline.len) → ∃ us : List (Workshift L), us.map (fun u => u.loc) = ks ∧
      (∀ u ∈ us, Workshift.new tb u.loc = .ok u) ∧ ks.mapM (fun i => tb.timeline.label i) = .ok (us.map (fun u => u.label)) := by
    intro ks
    induction ks with
    | nil => intro _; exact ⟨[], rfl, by simp, rfl⟩
    | cons k ks ih =>
      intro hk
      obtain ⟨us, a1, a2, a3⟩ := ih (fun x hx => hk x (List.mem_cons_of_mem _ hx))
      obtain ⟨k0, k1⟩ := hk k List.mem_cons_self
      obtain ⟨u, b1, b2, _, b3, _⟩ := Workshift.exists_of_range hv none k0 k1
      refine ⟨u :: us, by rw [List.map_cons, a1, b2], ?_, ?_⟩
      · intro x hx
        rcases List.mem_cons.1 hx with rfl | hx
        · rw [b2]; exact b1
        · exact a2 x hx
      · rw [List.mapM_cons, b3, a3]; rfl
  obtain ⟨us, u1, u2, u3⟩ := hex (tb'.dutyPositions s.selector d v.lo v.hi) (fun k hk => by
    have := (hmem k).1 hk; omega)
  refine ⟨ws, us, w1, ?_, u2, ?_, ?_⟩
  · rw [u1]; exact w2.symm
  · intro k
    have e : (∃ u ∈ us, u.loc = k) ↔ k ∈ us.map (fun u => u.loc) := by simp
    rw [e, u1, hmem, fv.contains_iff hv]
    grind
  · rcases hp'.dutyIdx_spec hv' ho hd with ⟨idx, g1, g2⟩ | ⟨idx, a, b, g1, _, _, _, g2⟩
    · rw [g2] at u1
      exact .inl ⟨by simpa using u1, idx, g1⟩
    · exact .inr ⟨idx, a, b, g1, by rw [g2, u1], by rw [g2, u3]⟩

/-- **C106**, work time by labels: the schedule of the second timeboard tells which workshifts are counted, the labels are those of the first timeboard. -/
theorem C106_worktime {tb tb' : Timeboard L} (h : tb.Reachable) (h' : tb'.Reachable) (hs : tb.SameTimes tb') {v : Interval L} (hi : tb.HasInterval v)
    (hn : v.isVoid = false) {s : Schedule L} (ho : tb'.Owns s) {d : Duty} (hd : d = .on ∨ d = .off ∨ d = .any) (hw : tb.worktimeSource = "labels")
    {num : L → Option Rat} {q : L → Rat} (hq : ∀ l, num l = some (q l)) :
    ∃ ws us : List (Workshift L), v.workshiftsUnder tb'.timeline d s = .ok ws ∧ us.map (fun u => u.loc) = ws.map (fun w => w.loc) ∧
      (∀ u ∈ us, Workshift.new tb u.loc = .ok u) ∧ (∀ k, (∃ u ∈ us, u.loc = k) ↔ v.Contains tb k ∧ tb'.DutyAt s d k) ∧
      v.worktimeUnder tb tb'.timeline num d s = .ok (us.map (fun u => q u.label)).sum := by
  obtain ⟨ws, us, h1, h2, h3, h4, h5⟩ := hs.positions h.valid h'.valid (hi.fine h.valid) hn ho hd
  refine ⟨ws, us, h1, h2, h3, h4, ?_⟩
  unfold Interval.worktimeUnder
  simp only [hn, hw, Bool.false_eq_true, if_false, if_true]
  have es := sumNums_all hq (us.map (fun u => u.label))
  rw [List.map_map] at es
  rcases h5 with ⟨rfl, idx, g1⟩ | ⟨idx, a, b, g1, g2, g3⟩
  · rw [g1]; rfl
  · rw [g1]
    simp only [g3]
    exact es

/-- **C106**, durations: the schedule of the second timeboard tells which workshifts are counted, the durations are those on the first timeboard, in its base
units; likewise the work time by durations. -/
theorem C106_durations {tb tb' : Timeboard L} (h : tb.Reachable) (h' : tb'.Reachable) (hs : tb.SameTimes tb') {v : Interval L} (hi : tb.HasInterval v)
    (hn : v.isVoid = false) {s : Schedule L} (ho : tb'.Owns s) {d : Duty} (hd : d = .on ∨ d = .off ∨ d = .any) :
    ∃ ws us : List (Workshift L), v.workshiftsUnder tb'.timeline d s = .ok ws ∧ us.map (fun u => u.loc) = ws.map (fun w => w.loc) ∧
      (∀ u ∈ us, Workshift.new tb u.loc = .ok u) ∧ (∀ k, (∃ u ∈ us, u.loc = k) ↔ v.Contains tb k ∧ tb'.DutyAt s d k) ∧
      ∃ ds : List Int, us.mapM (fun u => u.duration tb) = .ok ds ∧ v.totalDurationUnder tb tb'.timeline d s = .ok ds.sum ∧
        (tb.worktimeSource = "duration" → ∀ num, v.worktimeUnder tb tb'.timeline num d s = .ok (ds.sum : Rat)) := by
  have hv := h.valid
  obtain ⟨ws, us, h1, h2, h3, h4, h5⟩ := hs.positions hv h'.valid (hi.fine hv) hn ho hd
  have hr : ∀ k ∈ us.map (fun u => u.loc), 0 ≤ k ∧ k < tb.timeline.len := by
    intro k hk
    obtain ⟨u, hu, rfl⟩ := List.mem_map.1 hk
    obtain ⟨_, hk⟩ := (h4 u.loc).1 ⟨u, hu, rfl⟩
    have := hs.number
    exact ⟨hk.1, by have := hk.2.1; omega⟩
  have hds : ∀ us : List (Workshift L), (∀ k ∈ us.map (fun u => u.loc), 0 ≤ k ∧ k < tb.timeline.len) →
      us.mapM (fun u => u.duration tb) = .ok ((us.map (fun u => u.loc)).map (fun k => tb.timeline.bnd (k + 1) - tb.timeline.bnd k)) := by
    intro us
    induction us with
    | nil => intro _; rfl
    | cons u us ih =>
      intro hr
      rw [List.mapM_cons, ih (fun k hk => hr k (by rw [List.map_cons]; exact List.mem_cons_of_mem _ hk))]
      have hu := hr u.loc (by rw [List.map_cons]; exact List.mem_cons_self)
      unfold Workshift.duration
      rw [hv.wf.wsDuration_eq hu.1 hu.2]
      rfl
  have ht : v.totalDurationUnder tb tb'.timeline d s = .ok ((us.map (fun u => u.loc)).map (fun k => tb.timeline.bnd (k + 1) - tb.timeline.bnd k)).sum := by
    unfold Interval.totalDurationUnder
    simp only [hn, Bool.false_eq_true, if_false]
    rcases h5 with ⟨rfl, idx, g1⟩ | ⟨idx, a, b, g1, g2, g3⟩
    · rw [g1]; rfl
    · rw [g1]
      simp only [g2]
      rw [hv.wf.durationsFor_eq hr]
  refine ⟨ws, us, h1, h2, h3, h4, _, hds us hr, ht, ?_⟩
  intro hw num
  unfold Interval.worktimeUnder
  have hne : ¬ tb.worktimeSource = "labels" := by rw [hw]; decide
  simp only [hn, hw, Bool.false_eq_true, if_false, if_true, ht]
  rfl

/-- **C106**, work time of a workshift found under a schedule of the second timeboard: whether it counts is decided by that timeboard; what counts is the label
which the workshift has from there, or its duration on the first timeboard. -/
theorem C106_workshift_worktime {tb tb' : Timeboard L} (h : tb.Reachable) (h' : tb'.Reachable) (hs : tb.SameTimes tb') {t : Time} {s s' : Schedule L}
    {w : Workshift L} (hw : tb.getWorkshiftUnder tb'.timeline t s = .ok w) (num : L → Option Rat) {d : Duty} (hd : d = .on ∨ d = .off ∨ d = .any) :
    (¬ tb'.DutyAt s' d w.loc → w.worktimeUnder tb tb'.timeline num d s' = .ok 0) ∧
    (tb'.DutyAt s' d w.loc →
      (tb.worktimeSource = "labels" → w.worktimeUnder tb tb'.timeline num d s' = match num w.label with | some q => .ok q | none => .error .typeError) ∧
      (tb.worktimeSource = "duration" → w.worktimeUnder tb tb'.timeline num d s' = (w.duration tb).map (fun x : Int => (x : Rat)))) ∧
    tb'.timeline.label w.loc = .ok w.label := by
  have hv' := h'.valid
  rw [hs.getWorkshiftUnder_eq h.valid hv'] at hw
  obtain ⟨k, hk⟩ : ∃ k, tb'.timeline.wsPosition t = .ok k := by
    cases e : tb'.timeline.wsPosition t with
    | ok k => exact ⟨k, rfl⟩
    | error er =>
      exfalso
      unfold Timeboard.getWorkshift Timeboard.locate at hw
      rw [e] at hw
      grind
  have hr := (hv'.wf.wsPosition_ok_iff t k).1 hk
  rw [hv'.getWorkshift_of_within hk] at hw
  have hl := Workshift.new_label hw
  have hloc := Workshift.new_loc hw
  have hl' : tb'.timeline.label w.loc = .ok w.label := by rw [hloc]; exact hl
  have e1 : w.isOnDutyUnder tb'.timeline s' = .ok (s'.selector w.label) := by
    unfold Workshift.isOnDutyUnder Schedule.isOnDuty
    rw [hl']; rfl
  have e2 : w.isOffDutyUnder tb'.timeline s' = .ok (!s'.selector w.label) := by
    unfold Workshift.isOffDutyUnder Schedule.isOffDuty Schedule.isOnDuty
    rw [hl']; rfl
  have hdt : tb'.DutyAt s' d w.loc ↔ dutyMatches d s'.selector w.label = true := by
    rw [hv'.dutyAt_iff, hl']
    constructor
    · rintro ⟨_, _, l, e, hm⟩
      injection e with e
      rw [e]; exact hm
    · intro hm
      exact ⟨by omega, by omega, _, rfl, hm⟩
  rw [hdt]
  refine ⟨fun hm => ?_, fun hm => ⟨fun hsrc => ?_, fun hsrc => ?_⟩, hl'⟩ <;> unfold Workshift.worktimeUnder <;> rw [e1, e2]
  · have hm : dutyMatches d s'.selector w.label = false := by simpa using hm
    rcases hd with rfl | rfl | rfl
    · have hm : s'.selector w.label = false := hm
      rw [hm]; rfl
    · have hm : (!s'.selector w.label) = false := hm
      rw [hm]; rfl
    · cases hm
  · rw [hsrc]
    rcases hd with rfl | rfl | rfl
    · have hm : s'.selector w.label = true := hm
      rw [hm]
      cases num w.label <;> rfl
    · have hm : (!s'.selector w.label) = true := hm
      rw [hm]
      cases num w.label <;> rfl
    · cases num w.label <;> rfl
  · rw [hsrc]
    rcases hd with rfl | rfl | rfl
    · have hm : s'.selector w.label = true := hm
      rw [hm]; cases w.duration tb <;> rfl
    · have hm : (!s'.selector w.label) = true := hm
      rw [hm]; cases w.duration tb <;> rfl
    · cases w.duration tb <;> rfl

/-- **C106**, durations in the same base units: they are those on the second timeboard as well. -/
theorem C106_same_units {tb tb' : Timeboard L} (h : tb.Reachable) (h' : tb'.Reachable) (hs : tb.SameTimes tb')
    (hf : tb.timeline.frame.freq = tb'.timeline.frame.freq) {v v' : Interval L} (hi : tb.HasInterval v)
    (hi' : tb'.HasInterval v') (hn : v.isVoid = false) (hn' : v'.isVoid = false) (e1 : v.startTime tb = v'.startTime tb')
    (e2 : v.endTime tb = v'.endTime tb') (s : Schedule L) (d : Duty) :
    v.totalDurationUnder tb tb'.timeline d s = v'.totalDuration tb' d (some s) ∧ ∀ w : Workshift L, w.duration tb = w.duration tb' := by
  have hv := h.valid
  have hv' := h'.valid
  have hp : v.Proper tb := (hi.fine hv).shape.resolve_right (fun q => by rw [q.void] at hn; cases hn)
  have hp' : v'.Proper tb' := (hi'.fine hv').shape.resolve_right (fun q => by rw [q.void] at hn'; cases hn')
  have e := hs.ends hv hv' hp hp' e1 e2
  generalize hsch : v.schedule = sc at e
  subst e
  refine ⟨?_, hs.wsDuration_eq hv hv' hf⟩
  rw [hs.totalDurationUnder_eq hv hv' hf]; rfl

/-- **C106**, the ready-made calendars: any two of them with the same start and end have their workshifts at the same times. -/
theorem C106_calendars {c c' : Calendar} (hc : Preconfigured c) (hc' : Preconfigured c') {cs ce cs' ce' : Option Time} {dna oc dna' oc' : Bool}
    {custom custom' : Option (List (Time × Int))} {heap heap' : Heap Int} {tb tb' : Timeboard Int} (h : c.new cs ce dna oc custom heap = .ok tb)
    (h' : c'.new cs' ce' dna' oc' custom' heap' = .ok tb') :
    tb.SameTimes tb' ↔ (tb.startTime = tb'.startTime ∧ tb.endTime = tb'.endTime) := by
  obtain ⟨hr, _, _⟩ := hc.facts h
  obtain ⟨hr', _, _⟩ := hc'.facts h'
  have hv := hr.valid
  have hv' := hr'.valid
  constructor
  · intro hs
    have g := hs.timesAgree hv hv'
    exact ⟨g.startTime, g.endTime⟩
  · rintro ⟨e1, e2⟩
    have n : tb.timeline.len = tb'.timeline.len := by
      have a := hc.grid' h (Timeline.len_nonneg _) (Int.le_refl _)
      have b := hc'.grid' h' (Timeline.len_nonneg _) (Int.le_refl _)
      rw [hv.wf.unitStart_bnd_len] at a
      rw [hv'.wf.unitStart_bnd_len] at b
      have e3 : tb.timeline.frame.endTime = tb'.timeline.frame.endTime := e2
      rw [e3, b, e1] at a
      unfold nsDay at a
      omega
    refine ⟨n, ?_⟩
    intro k h0 hk
    have hk' : k < tb'.timeline.len := n ▸ hk
    obtain ⟨w, a1, al, _, _, a2, a3, _⟩ := Workshift.exists_of_range hv none h0 hk
    obtain ⟨w', b1, bl, _, _, b2, b3, _⟩ := Workshift.exists_of_range hv' none h0 hk'
    have s1 : w.startTime tb = w'.startTime tb' := by
      rw [a2, b2, hc.grid' h h0 (by omega), hc'.grid' h' h0 (by omega), e1]
    refine ⟨w, w', a1, b1, s1, ?_, ?_⟩
    · rw [a3, b3, hc.grid' h (show 0 ≤ k + 1 by omega) (by omega), hc'.grid' h' (show 0 ≤ k + 1 by omega) (by omega), e1]
    · unfold Workshift.toTimestamp Timeline.wsRef
      rw [hc.ref_start h, hc'.ref_start h']
      exact s1

/-- **C106**, nothing checks that the timeboards have the same times: with the schedule of the British calendar which begins a month earlier, New Year's Day in
the American calendar is told to be on duty; with the one which ends a month later, rolling from the last day leads to a workshift which has no times at all. -/
theorem C106_unchecked : ∃ (us early late : Timeboard Int) (w x y : Workshift Int),
    (usCalendar).new (some (date 2018 1 1)) (some (date 2018 1 31)) = .ok us ∧
    (ukCalendar).new (some (date 2017 12 1)) (some (date 2018 1 31)) = .ok early ∧
    (ukCalendar).new (some (date 2018 1 1)) (some (date 2018 2 28)) = .ok late ∧
    us.getWorkshift (date 2018 1 1) none = .ok w ∧ w.isOnDutyUnder early.timeline early.defaultSchedule = .ok true ∧
    (∃ z, early.getWorkshift (date 2018 1 1) none = .ok z ∧ z.isOnDuty early none = .ok false) ∧
    us.getWorkshift (date 2018 1 31) none = .ok x ∧ x.rollforward us 1 .on none = .error .outOfBounds ∧
    x.rollforwardUnder late.timeline 1 .on late.defaultSchedule = .ok y ∧ y.startTime us = .error .indexError := by
  have key : (do
      let us ← (usCalendar).new (some (date 2018 1 1)) (some (date 2018 1 31))
      let early ← (ukCalendar).new (some (date 2017 12 1)) (some (date 2018 1 31))
      let late ← (ukCalendar).new (some (date 2018 1 1)) (some (date 2018 2 28))
      let w ← us.getWorkshift (date 2018 1 1) none
      let a ← w.isOnDutyUnder early.timeline early.defaultSchedule
      let z ← early.getWorkshift (date 2018 1 1) none
      let b ← z.isOnDuty early none
      let x ← us.getWorkshift (date 2018 1 31) none
      let y ← x.rollforwardUnder late.timeline 1 .on late.defaultSchedule
      return (a, b, (x.rollforward us 1 .on none).map (fun w => w.loc), y.startTime us)) =
        Except.ok (true, false, .error .outOfBounds, .error .indexError) := by decide +kernel
  obtain ⟨us, e1, key⟩ := bind_inv key
  obtain ⟨early, e2, key⟩ := bind_inv key
  obtain ⟨late, e3, key⟩ := bind_inv key
  obtain ⟨w, e4, key⟩ := bind_inv key
  obtain ⟨a, e5, key⟩ := bind_inv key
  obtain ⟨z, e6, key⟩ := bind_inv key
  obtain ⟨b, e7, key⟩ := bind_inv key
  obtain ⟨x, e8, key⟩ := bind_inv key
  obtain ⟨y, e9, key⟩ := bind_inv key
  have key : (a, b, (x.rollforward us 1 .on none).map (fun w => w.loc), y.startTime us) =
    (true, false, .error .outOfBounds, .error .indexError) := Except.ok.inj key
  simp only [Prod.mk.injEq] at key
  obtain ⟨k1, k2, k3, k4⟩ := key
  subst k1 k2
  refine ⟨us, early, late, w, x, y, e1, e2, e3, e4, e5, ⟨z, e6, e7⟩, e8, ?_, e9, k4⟩
  cases hr : x.rollforward us 1 .on none with
  | error e => rw [hr] at k3; exact congrArg _ (Except.error.inj k3)
  | ok r => rw [hr] at k3; cases k3

/-- The hypotheses are met: December 2017 in the American and in the British calendar. Of its last week one works four days in America and three in Britain;
the American hours of the three days are 24. -/
example : (do
    let us ← (usCalendar).new (some (date 2017 12 1)) (some (date 2017 12 31))
    let uk ← (ukCalendar).new (some (date 2017 12 1)) (some (date 2017 12 31))
    let v ← us.getInterval (some (.pair (some (date 2017 12 25)) (some (date 2017 12 31))))
    let v' ← uk.getInterval (some (.pair (some (date 2017 12 25)) (some (date 2017 12 31))))
    let n ← v.count us
    let n' ← v.countUnder uk.timeline .on uk.defaultSchedule
    let m ← v'.count uk .on (some uk.defaultSchedule)
    let q ← v.worktimeUnder us uk.timeline (fun l => some l) .on uk.defaultSchedule
    let p ← v.countPeriodsUnder us uk.timeline ⟨none, .M, by decide⟩ .on uk.defaultSchedule
    let w ← us.getWorkshiftUnder uk.timeline (date 2017 12 26) uk.defaultSchedule
    let x ← w.rollforwardUnder uk.timeline 0 .on uk.defaultSchedule
    let t ← x.startTime us
    return (decide (us.startTime = uk.startTime ∧ us.endTime = uk.endTime), [n, n', m, t], q, p)) =
      Except.ok (true, [4, 3, 3, date 2017 12 27], 24, 3 / 19) := by decide +kernel

end TB
