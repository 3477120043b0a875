import Verif.Lemmas.Later2
/-! Durations, calendar periods and calls of timeboards some time later. -/
namespace TB
variable {L : Type}

private theorem bind_ok {α β : Type} (a : α) (f : α → Except Err β) : (Except.ok a >>= f) = f a := rfl

private theorem map_ok {α β : Type} (a : α) (f : α → β) : (Except.ok a : Except Err α).map f = .ok (f a) := rfl
private theorem map_error {α β : Type} (e : Err) (f : α → β) : (Except.error e : Except Err α).map f = .error e := rfl
private theorem bind_error {α β : Type} (e : Err) (f : α → Except Err β) : (Except.error e >>= f) = .error e := rfl

theorem timeOrTypeError_later (d : Int) (x : Except Err (Option Time)) : timeOrTypeError (x.map (Option.map (· + d))) = (timeOrTypeError x).map (· + d) := by
  cases x with
  | error e => rfl
  | ok o => cases o <;> rfl

theorem Timeboard.LaterBy.layout_eq {d : Int} {tb tb' : Timeboard L} (hv : tb.Valid) (hv' : tb'.Valid) (h : tb.LaterBy d tb') :
    tb.timeline.wsIdx = tb'.timeline.wsIdx ∧ tb.timeline.frame.n = tb'.timeline.frame.n ∧ tb.timeline.frameband = tb'.timeline.frameband := by
  have wf := hv.wf
  have wf' := hv'.wf
  have hlen := h.number
  have hdur : ∀ k, 0 ≤ k → k < tb.timeline.len → tb.timeline.bnd (k + 1) - tb.timeline.bnd k = tb'.timeline.bnd (k + 1) - tb'.timeline.bnd k := by
    intro k h0 h1
    obtain ⟨w, w', e1, e2, _, e4, _⟩ := h.each k h0 h1
    obtain ⟨x, hx, x1, _⟩ := Workshift.exists_of_range hv none h0 h1
    obtain ⟨y, hy, y1, _⟩ := Workshift.exists_of_range hv' none h0 (hlen ▸ h1)
    rw [e1] at hx; cases hx
    rw [e2] at hy; cases hy
    unfold Workshift.duration at e4
    rw [x1, y1, wf.wsDuration_eq h0 h1, wf'.wsDuration_eq h0 (hlen ▸ h1)] at e4
    injection e4
  have hb : ∀ j : Nat, (j : Int) ≤ tb.timeline.len → tb.timeline.bnd j = tb'.timeline.bnd j := by
    intro j
    induction j with
    | zero => intro _; rw [show ((0 : Nat) : Int) = 0 from rfl, wf.bnd_zero, wf'.bnd_zero]
    | succ j ih =>
      intro hj
      have h1 := ih (by omega)
      have h2 := hdur j (by omega) (by omega)
      rw [show ((j + 1 : Nat) : Int) = (j : Int) + 1 by omega]
      omega
  have hpos := wf.len_pos
  have hn : tb.timeline.frame.n = tb'.timeline.frame.n := by
    have := hb tb.timeline.len.toNat (by omega)
    rw [show ((tb.timeline.len.toNat : Nat) : Int) = tb.timeline.len by omega, Timeline.bnd_ge (Int.le_refl _), Timeline.bnd_ge (by omega)] at this
    omega
  have hidx : tb.timeline.wsIdx = tb'.timeline.wsIdx := by
    unfold Timeline.len at *
    apply List.ext_getElem (by omega)
    intro i h1 h2
    have := hb i (by omega)
    obtain ⟨g1, e1⟩ := Timeline.bnd_lt (tl := tb.timeline) (k := i) (by omega) (by unfold Timeline.len; omega)
    obtain ⟨g2, e2⟩ := Timeline.bnd_lt (tl := tb'.timeline) (k := i) (by omega) (by unfold Timeline.len; omega)
    rw [e1, e2] at this
    exact this
  refine ⟨hidx, hn, ?_⟩
  have l1 := wf.fb_len
  have l2 := wf'.fb_len
  apply List.ext_getElem (by omega)
  intro i h1 h2
  obtain ⟨a1, a2, a3⟩ := wf.fb i h1
  obtain ⟨b1, b2, b3⟩ := wf'.fb i h2
  have c1 := a3 _ (hidx ▸ b1) b2
  have c2 := b3 _ (hidx ▸ a1) a2
  omega

theorem Timeboard.LaterBy.durationsFor_eq {d : Int} {tb tb' : Timeboard L} (hv : tb.Valid) (hv' : tb'.Valid) (h : tb.LaterBy d tb') (ks : List Int) :
    tb'.timeline.durationsFor ks = tb.timeline.durationsFor ks := by
  obtain ⟨e1, _, e3⟩ := h.layout_eq hv hv'
  unfold Timeline.durationsFor Timeline.firstBaseunit
  rw [e1, e3]

theorem Timeboard.LaterBy.wsDuration_eq {d : Int} {tb tb' : Timeboard L} (hv : tb.Valid) (hv' : tb'.Valid) (h : tb.LaterBy d tb') (k : Int) :
    tb'.timeline.wsDuration k = tb.timeline.wsDuration k := by
  obtain ⟨e1, e2, _⟩ := h.layout_eq hv hv'
  unfold Timeline.wsDuration Timeline.lastBaseunit Timeline.firstBaseunit
  rw [e1, e2]

theorem Timeboard.LaterBy.totalDuration_eq {d : Int} {tb tb' : Timeboard L} (hv : tb.Valid) (hv' : tb'.Valid) (h : tb.LaterBy d tb')
    (v : Interval L) (du : Duty) (s : Option (Schedule L)) : v.totalDuration tb' du s = v.totalDuration tb du s := by
  unfold Interval.totalDuration
  simp only [(h.agree hv hv').dutyIdx_eq, h.durationsFor_eq hv hv']

theorem Timeboard.LaterBy.worktime_eq {d : Int} {tb tb' : Timeboard L} (hv : tb.Valid) (hv' : tb'.Valid) (h : tb.LaterBy d tb')
    (hw : tb'.worktimeSource = tb.worktimeSource) (v : Interval L) (num : L → Option Rat) (du : Duty) (s : Option (Schedule L)) :
    v.worktime tb' num du s = v.worktime tb num du s := by
  unfold Interval.worktime
  simp only [h.totalDuration_eq hv hv', hw, (h.agree hv hv').sumLabels_eq]

theorem Timeboard.LaterBy.ws_worktime_eq {d : Int} {tb tb' : Timeboard L} (hv : tb.Valid) (hv' : tb'.Valid) (h : tb.LaterBy d tb')
    (hw : tb'.worktimeSource = tb.worktimeSource) (w : Workshift L) (num : L → Option Rat) (du : Duty) (s : Option (Schedule L)) :
    w.worktime tb' num du s = w.worktime tb num du s := by
  unfold Workshift.worktime Workshift.duration
  simp only [h.wsDuration_eq hv hv', hw, (h.agree hv hv').isOnDuty_eq, (h.agree hv hv').isOffDuty_eq]

namespace Timeboard.AgreeBy
variable {d : Int} {tb tb' : Timeboard L} (h : tb.AgreeBy d tb') (hd : tb.defaultSchedule = tb'.defaultSchedule)
include h hd

theorem call1_eq {ref : IvlRef} (hr : ∀ p, ref = .period p → p.freq.base.Recurs d) : tb'.call1 (ref.later d) = tb.call1 ref := by
  unfold Timeboard.call1
  have := h.getInterval_eq hd (ref := some ref) (fun p hp => hr p (Option.some.inj hp)) none (period := none) (fun f hf => by cases hf) true "11" none
  simp only [Option.map] at this
  rw [this, IvlRef.toTime_later hr]
  cases ref.toTime? with
  | none => rfl
  | some t => simp only [Option.map, h.getWorkshift_eq hd]

theorem callN_eq {ref : Option IvlRef} (hr : ∀ p, ref = some (.period p) → p.freq.base.Recurs d) (length : Option Int) {period : Option Freq}
    (hp : ∀ f, period = some f → f.base.Recurs d) (clip : Bool) (closed : String) (s : Option (Schedule L)) :
    tb'.callN (ref.map (IvlRef.later d)) length period clip closed s = tb.callN ref length period clip closed s := by
  unfold Timeboard.callN
  rw [h.getInterval_eq hd hr length hp]

theorem periodLoop_eq {f : Freq} {k : Int} (hf : ∀ o, f.base.startOf (o + k) = f.base.startOf o + d) (du : Duty) (s : Schedule L) : ∀ os : List Int,
    periodLoop tb' f du s (os.map (· + k)) = periodLoop tb f du s os
  | [] => rfl
  | o :: os => by
    have e : tb'.getInterval (some (.period ⟨f, o + k⟩)) none none false "11" (some s) = tb.getInterval (some (.period ⟨f, o⟩)) none none false "11" (some s) := by
      have := h.getInterval_eq hd (ref := some (.period ⟨f, o⟩)) (fun p hp => by cases hp; exact ⟨k, hf⟩) none (period := none) (fun f hf => by cases hf) false "11" (some s)
      rw [← this]
      simp only [Option.map, IvlRef.later, Period.ofTime, Period.startTime, ordOf_later hf, Base.ordOf_startOf]
    simp only [List.map_cons]
    unfold periodLoop
    simp only [e, h.count_eq, periodLoop_eq hf du s os]

theorem pair_eq (t u : Time) (s : Schedule L) : tb'.getInterval (some (.pair (some (t + d)) (some (u + d)))) none none false "11" (some s) =
    tb.getInterval (some (.pair (some t) (some u))) none none false "11" (some s) :=
  h.getInterval_eq hd (ref := some (.pair (some t) (some u))) (fun p hp => by cases hp) none (period := none) (fun f hf => by cases hf) false "11" (some s)

theorem countPeriodsBody_eq {f : Freq} {k : Int} (hf : ∀ o, f.base.startOf (o + k) = f.base.startOf o + d) (v : Interval L) (du : Duty) (s : Schedule L)
    {index : Frame} (hi : index.freq = f) (t u : Time) :
    v.countPeriodsBody tb' f du s (index.move k) (t + d) (u + d) = v.countPeriodsBody tb f du s index t u := by
  have hM : index.Moves d k := by unfold Frame.Moves; rw [hi]; exact hf
  unfold Interval.countPeriodsBody
  rw [Frame.ords_move, h.periodLoop_eq hd hf, hM.getLoc, hM.getLoc]
  cases periodLoop tb f du s index.ords with
  | error e => rfl
  | ok entries =>
    simp only [bind_ok]
    cases index.getLoc t with
    | error e => rfl
    | ok i0 =>
      simp only [bind_ok]
      cases index.getLoc u with
      | error e => rfl
      | ok i1 =>
        simp only [bind_ok, hM.unitEnd, h.count_eq, h.endTime_eq, h.startTime_eq, timeOrTypeError_later]
        by_cases hc : u ≤ index.unitEnd i0
        · rw [if_pos hc, if_pos (by omega)]
        · rw [if_neg hc, if_neg (by omega)]
          cases periodEntry entries i0 with
          | error e => rfl
          | ok e0 =>
            simp only [bind_ok]
            cases timeOrTypeError (e0.1.endTime tb) with
            | error e => rfl
            | ok t0 =>
              simp only [bind_ok, map_ok, h.pair_eq hd]
              cases tb.getInterval (some (.pair (some t) (some t0))) none none false "11" (some s) with
              | error e => rfl
              | ok v0 =>
                simp only [bind_ok]
                cases v0.count tb du (some s) with
                | error e => rfl
                | ok c0 =>
                  simp only [bind_ok]
                  cases pyDiv c0 e0.2 with
                  | error e => rfl
                  | ok q0 =>
                    simp only [bind_ok]
                    cases periodEntry entries i1 with
                    | error e => rfl
                    | ok e1 =>
                      simp only [bind_ok]
                      cases timeOrTypeError (e1.1.startTime tb) with
                      | error e => rfl
                      | ok t1 =>
                        simp only [bind_ok, map_ok, h.pair_eq hd]

theorem countPeriods_eq {f : Freq} (hf : f.base.Recurs d) (v : Interval L) (du : Duty) (s : Option (Schedule L)) :
    v.countPeriods tb' f du s = v.countPeriods tb f du s := by
  obtain ⟨k, hk⟩ := hf
  unfold Interval.countPeriods Interval.first Interval.last Workshift.toTimestamp
  simp only [h.startTime_eq, h.endTime_eq, h.nth_eq hd, h.ref, timeOrTypeError_later]
  generalize timeOrTypeError (v.startTime tb) = x
  generalize timeOrTypeError (v.endTime tb) = y
  generalize v.nth tb 0 du (some (s.getD v.schedule)) = z
  generalize v.nth tb (-1) du (some (s.getD v.schedule)) = z'
  split
  · rfl
  · split
    · rfl
    · cases x with
      | error e => simp only [map_error, bind_error]
      | ok a =>
        cases y with
        | error e => simp only [map_ok, map_error, bind_ok, bind_error]
        | ok b =>
          simp only [map_ok, bind_ok, Frame.new_later hk]
          cases hF : Frame.new f a b with
          | error e => simp only [map_error, bind_error]
          | ok index =>
            have hi : index.freq = f := by obtain ⟨_, rfl⟩ := Frame.new_ok_iff.1 hF; rfl
            simp only [map_ok, bind_ok]
            cases z with
            | error e => cases e <;> simp only
            | ok w0 =>
              cases z' with
              | error e => cases e <;> simp only
              | ok w1 =>
                simp only
                cases tb.timeline.wsRef w0.loc with
                | error e => simp only [map_error, bind_error]
                | ok t =>
                  simp only [map_ok, bind_ok]
                  cases tb.timeline.wsRef w1.loc with
                  | error e => simp only [map_error, bind_error]
                  | ok u =>
                    simp only [map_ok, bind_ok]
                    exact h.countPeriodsBody_eq hd hk v du _ hi t u

end Timeboard.AgreeBy

end TB
