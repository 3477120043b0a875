import Verif.Lemmas.AmendCounts
import Verif.Props.Additive
import Verif.Props.Schedules
import Verif.Props.Tiling
import Verif.Lemmas.WorkingDays
import Verif.Examples.Boards
/-! Property C107: what further amendments change in the calculations. -/
namespace TB
open TB.Ex
variable {L : Type}

theorem Timeboard.getInterval_default (tb : Timeboard L) (ref : Option IvlRef) (length : Option Int) (period : Option Freq) (clip : Bool) (closed : String) :
    tb.getInterval ref length period clip closed none = tb.getInterval ref length period clip closed (some tb.defaultSchedule) := by
  unfold Timeboard.getInterval Timeboard.finishInterval
  split
  · rfl
  · simp only
    cases tb.intervalLocs ref length period clip _ _ with
    | error e => rfl
    | ok locs => rfl

/-- **C107**, intervals: with further amendments the same intervals can be obtained, and the same errors arise. -/
theorem C107_intervals {a : Args L} {heap heap1 heap2 : Heap L} {tb tb' : Timeboard L} {more : List (Time × L)}
    (h : Timeboard.new a heap = .ok (tb, heap1)) (h' : Timeboard.new { a with amendments := a.amendments ++ more } heap = .ok (tb', heap2))
    (ref : Option IvlRef) (length : Option Int) (period : Option Freq) (clip : Bool) (closed : String) :
    (∀ e, tb.getInterval ref length period clip closed = .error e → tb'.getInterval ref length period clip closed = .error e) ∧
    ∀ v, tb.getInterval ref length period clip closed = .ok v → ∃ v', tb'.getInterval ref length period clip closed = .ok v' ∧
      v'.startTime tb' = v.startTime tb ∧ v'.endTime tb' = v.endTime tb ∧ v'.len = v.len ∧ v'.isVoid = v.isVoid ∧
      v'.schedule.selector = v.schedule.selector := by
  obtain ⟨_, hsel, ham⟩ := Timeboard.amended_of h h'
  have hv : tb.Valid := (Timeboard.Reachable.new h).valid
  have hv' : tb'.Valid := (Timeboard.Reachable.new h').valid
  have hs := ham.sameTimes hv hv'
  have e : tb'.getInterval ref length period clip closed =
      (tb.getInterval ref length period clip closed).map (Interval.put tb'.defaultSchedule) := by
    rw [tb'.getInterval_default, tb.getInterval_default, ← hs.getInterval_eq hv hv', Timeboard.getInterval_put tb _ _ _ _ _ tb.defaultSchedule]
  refine ⟨fun x hx => by rw [e, hx]; rfl, fun v hx => ⟨v.put tb'.defaultSchedule, by rw [e, hx]; rfl, ?_, ?_, rfl, rfl, ?_⟩⟩
  · rw [hs.startTime_eq hv hv']; rfl
  · rw [hs.endTime_eq hv hv']; rfl
  · have : v.schedule = tb.defaultSchedule := by
      have q := Timeboard.getInterval_put tb ref length period clip closed tb.defaultSchedule tb.defaultSchedule
      rw [← tb.getInterval_default, hx] at q
      simp only [Except.map, Except.ok.injEq] at q
      rw [q]; rfl
    rw [this]; exact hsel

/-- The work time of an interval as a sum over positions. -/
theorem worktime_amounts {tb : Timeboard L} (h : tb.Reachable) {v : Interval L} (hv : tb.HasInterval v)
    {s : Option (Schedule L)} (hs : tb.OwnsOpt s) {num : L → Option Rat} {q : L → Rat} (hq : ∀ l, num l = some (q l)) {d : Duty}
    (hd : d = .on ∨ d = .off ∨ d = .any) :
    v.worktime tb num d s = .ok ((intRange v.lo (v.hi + 1)).map (tb.amount (fun l n => if dutyMatches d (s.getD v.schedule).selector l then
      (if tb.worktimeSource = "labels" then q l else (n : Rat)) else 0))).sum := by
  rw [worktime_by_positions h hv hs num hd]
  have fv := hv.fine h.valid
  have h0 := fv.nonneg
  have h1 := fv.lt
  have key : ∀ ks : List Int, (∀ k ∈ ks, 0 ≤ k ∧ k < tb.timeline.len) → ks.mapM (fun k =>
      (Workshift.new tb k (some (s.getD v.schedule))).bind (fun w => w.worktime tb num d (some (s.getD v.schedule)))) =
      .ok (ks.map (tb.amount (fun l n => if dutyMatches d (s.getD v.schedule).selector l then
      (if tb.worktimeSource = "labels" then q l else (n : Rat)) else 0))) := by
    intro ks
    induction ks with
    | nil => intro _; rfl
    | cons k ks ih =>
      intro hk
      obtain ⟨k0, k1⟩ := hk k List.mem_cons_self
      rw [List.mapM_cons, ih (fun x hx => hk x (List.mem_cons_of_mem _ hx))]
      obtain ⟨w, b1, b2, _, b3, _, _, _, b4⟩ := Workshift.exists_of_range h.valid (some (s.getD v.schedule)) k0 k1
      rw [b1]
      simp only [Except.bind, bind]
      rw [Workshift.worktime_eq (by rw [b2]; exact b3) num _ hd, hq]
      unfold Timeboard.amount
      simp only [b3, List.map_cons]
      by_cases hm : dutyMatches d (s.getD v.schedule).selector w.label = true
      · simp only [if_pos hm]
        rcases h.valid.source with hsrc | hsrc
        · simp only [hsrc, if_neg (show ¬ ("duration" = "labels") by decide), if_true, b4]; rfl
        · simp only [hsrc, if_true]; rfl
      · simp only [if_neg hm]; rfl
  rw [key]
  · rfl
  · intro k hk
    rw [mem_intRange] at hk
    omega

/-- The calculations for an interval, before and after. -/
theorem Timeboard.Amended.amounts {tb tb' : Timeboard L} {more : List (Time × L)} (ham : tb.Amended tb' more) (hr : tb.Reachable) (hr' : tb'.Reachable)
    {v v' : Interval L} (hi : tb.HasInterval v) (hi' : tb'.HasInterval v') (hn : v.isVoid = false) (hn' : v'.isVoid = false) {t0 t1 : Time}
    (e0 : v.startTime tb = .ok (some t0)) (e1 : v.endTime tb = .ok (some t1)) (e0' : v'.startTime tb' = .ok (some t0)) (e1' : v'.endTime tb' = .ok (some t1))
    {s s' : Option (Schedule L)} (ho : tb.OwnsOpt s) (ho' : tb'.OwnsOpt s') {sel : L → Bool} (hsel : (s.getD v.schedule).selector = sel)
    (hsel' : (s'.getD v'.schedule).selector = sel) {d : Duty} (hd : d = .on ∨ d = .off ∨ d = .any)
    {num : L → Option Rat} {q : L → Rat} (hq : ∀ l, num l = some (q l)) :
    (∃ n n', v.count tb d s = .ok n ∧ v'.count tb' d s' = .ok n' ∧
      (n' : Rat) = n + ((amendmentsWithin t0 t1 more).map (tb.effect (fun l _ => if dutyMatches d sel l then 1 else 0))).sum) ∧
    (∃ n n', v.totalDuration tb d s = .ok n ∧ v'.totalDuration tb' d s' = .ok n' ∧
      (n' : Rat) = n + ((amendmentsWithin t0 t1 more).map (tb.effect (fun l n => if dutyMatches d sel l then (n : Rat) else 0))).sum) ∧
    (∃ n n', v.worktime tb num d s = .ok n ∧ v'.worktime tb' num d s' = .ok n' ∧
      n' = n + ((amendmentsWithin t0 t1 more).map (tb.effect (fun l n => if dutyMatches d sel l then
        (if tb.worktimeSource = "labels" then q l else (n : Rat)) else 0))).sum) := by
  have hv := hr.valid
  have hv' := hr'.valid
  have hs := ham.sameTimes hv hv'
  have fv := hi.fine hv
  have fv' := hi'.fine hv'
  have hp : v.Proper tb := fv.shape.resolve_right (fun q => by rw [q.void] at hn; cases hn)
  have hp' : v'.Proper tb' := fv'.shape.resolve_right (fun q => by rw [q.void] at hn'; cases hn')
  have e := hs.ends hv hv' hp hp' (e0.trans e0'.symm) (e1.trans e1'.symm)
  have elo : v'.lo = v.lo := by rw [e]
  have ehi : v'.hi = v.hi := by rw [e]
  have es : tb.timeline.wsStart v.lo = .ok t0 := by
    unfold Interval.startTime at e0
    simp only [hn, Bool.false_eq_true, if_false] at e0
    cases hx : tb.timeline.wsStart v.lo with
    | error e => rw [hx] at e0; cases e0
    | ok x => rw [hx] at e0; cases e0; rfl
  have ee : tb.timeline.wsEnd v.hi = .ok t1 := by
    unfold Interval.endTime at e1
    simp only [hn, Bool.false_eq_true, if_false] at e1
    cases hx : tb.timeline.wsEnd v.hi with
    | error e => rw [hx] at e1; cases e1
    | ok x => rw [hx] at e1; cases e1; rfl
  have main := ham.sums hv hv' hp.lo_nonneg hp.lo_le_hi hp.hi_lt es ee
  have cnt : ∀ (tb : Timeboard L) (lo hi : Int), (((tb.dutyPositions sel d lo hi).length : Int) : Rat) =
      ((intRange lo (hi + 1)).map (tb.amount (fun l _ => if dutyMatches d sel l then 1 else 0))).sum := by
    intro tb lo hi
    rw [← tb.amount_positions sel d lo hi (fun _ _ => 1), rat_length]
    congr 1
    apply List.map_congr_left
    intro k hk
    obtain ⟨_, _, l, hl, _⟩ := Timeboard.mem_dutyPositions.1 hk
    unfold Timeboard.amount
    rw [hl]
  have dur : ∀ (tb : Timeboard L) (lo hi : Int), ((((tb.dutyPositions sel d lo hi).map (fun k => tb.timeline.bnd (k + 1) - tb.timeline.bnd k)).sum : Int) : Rat) =
      ((intRange lo (hi + 1)).map (tb.amount (fun l n => if dutyMatches d sel l then (n : Rat) else 0))).sum := by
    intro tb lo hi
    rw [← tb.amount_positions sel d lo hi (fun _ n => n), rat_int_sum]
    congr 1
    apply List.map_congr_left
    intro k hk
    obtain ⟨_, _, l, hl, _⟩ := Timeboard.mem_dutyPositions.1 hk
    unfold Timeboard.amount
    rw [hl]
  refine ⟨⟨_, _, fv.count_eq hv ho hd, fv'.count_eq hv' ho' hd, ?_⟩, ⟨_, _, fv.totalDuration_eq hv ho hd, fv'.totalDuration_eq hv' ho' hd, ?_⟩,
    ⟨_, _, worktime_amounts hr hi ho hq hd, worktime_amounts hr' hi' ho' hq hd, ?_⟩⟩
  · rw [hsel, hsel', cnt, cnt, elo, ehi, main]
  · rw [hsel, hsel', dur, dur, elo, ehi, main]
  · rw [hsel, hsel', elo, ehi, ham.source, main]

/-- **C107**, calculations: made with the same arguments and further amendments, a timeboard gives for an interval the same counts, durations and work times
except for the effect of those of the further amendments whose keys are in the interval: each one takes away what the workshift with its key counted for
before, and adds what the new label counts for. -/
theorem C107_amounts {a : Args L} {heap heap1 heap2 : Heap L} {tb tb' : Timeboard L} {more : List (Time × L)}
    (h : Timeboard.new a heap = .ok (tb, heap1)) (h' : Timeboard.new { a with amendments := a.amendments ++ more } heap = .ok (tb', heap2))
    {v v' : Interval L} (hi : tb.HasInterval v) (hi' : tb'.HasInterval v') (hn : v.isVoid = false) (hn' : v'.isVoid = false) {t0 t1 : Time}
    (e0 : v.startTime tb = .ok (some t0)) (e1 : v.endTime tb = .ok (some t1)) (e0' : v'.startTime tb' = .ok (some t0)) (e1' : v'.endTime tb' = .ok (some t1))
    {s s' : Option (Schedule L)} (ho : tb.OwnsOpt s) (ho' : tb'.OwnsOpt s') {sel : L → Bool} (hsel : (s.getD v.schedule).selector = sel)
    (hsel' : (s'.getD v'.schedule).selector = sel) {d : Duty} (hd : d = .on ∨ d = .off ∨ d = .any)
    {num : L → Option Rat} {q : L → Rat} (hq : ∀ l, num l = some (q l)) :
    (∃ n n', v.count tb d s = .ok n ∧ v'.count tb' d s' = .ok n' ∧
      (n' : Rat) = n + ((amendmentsWithin t0 t1 more).map (tb.effect (fun l _ => if dutyMatches d sel l then 1 else 0))).sum) ∧
    (∃ n n', v.totalDuration tb d s = .ok n ∧ v'.totalDuration tb' d s' = .ok n' ∧
      (n' : Rat) = n + ((amendmentsWithin t0 t1 more).map (tb.effect (fun l n => if dutyMatches d sel l then (n : Rat) else 0))).sum) ∧
    (∃ n n', v.worktime tb num d s = .ok n ∧ v'.worktime tb' num d s' = .ok n' ∧
      n' = n + ((amendmentsWithin t0 t1 more).map (tb.effect (fun l n => if dutyMatches d sel l then
        (if a.worktimeSource = "labels" then q l else (n : Rat)) else 0))).sum) := by
  obtain ⟨_, _, ham⟩ := Timeboard.amended_of h h'
  have hsrc : tb.worktimeSource = a.worktimeSource := by
    obtain ⟨org, frame, tl0, tl, h1, h2, h3, h4, h5, rfl⟩ := Timeboard.new_ok_iff.1 h
    rfl
  rw [← hsrc]
  exact ham.amounts (.new h) (.new h') hi hi' hn hn' e0 e1 e0' e1' ho ho' hsel hsel' hd hq

/-- **C107**, elsewhere: a further amendment changes nothing for the intervals which do not contain its key. -/
theorem C107_elsewhere {a : Args L} {heap heap1 heap2 : Heap L} {tb tb' : Timeboard L} {more : List (Time × L)}
    (h : Timeboard.new a heap = .ok (tb, heap1)) (h' : Timeboard.new { a with amendments := a.amendments ++ more } heap = .ok (tb', heap2))
    {v v' : Interval L} (hi : tb.HasInterval v) (hi' : tb'.HasInterval v') (hn : v.isVoid = false) (hn' : v'.isVoid = false) {t0 t1 : Time}
    (e0 : v.startTime tb = .ok (some t0)) (e1 : v.endTime tb = .ok (some t1)) (e0' : v'.startTime tb' = .ok (some t0)) (e1' : v'.endTime tb' = .ok (some t1))
    (hout : ∀ p ∈ more, p.1 < t0 ∨ t1 < p.1)
    {s s' : Option (Schedule L)} (ho : tb.OwnsOpt s) (ho' : tb'.OwnsOpt s')
    (hsel : (s'.getD v'.schedule).selector = (s.getD v.schedule).selector) {d : Duty} (hd : d = .on ∨ d = .off ∨ d = .any)
    {num : L → Option Rat} {q : L → Rat} (hq : ∀ l, num l = some (q l)) :
    v'.count tb' d s' = v.count tb d s ∧ v'.totalDuration tb' d s' = v.totalDuration tb d s ∧ v'.worktime tb' num d s' = v.worktime tb num d s := by
  obtain ⟨⟨n, n', a1, a2, a3⟩, ⟨m, m', b1, b2, b3⟩, ⟨x, x', c1, c2, c3⟩⟩ :=
    C107_amounts h h' hi hi' hn hn' e0 e1 e0' e1' ho ho' rfl hsel hd hq
  have hnil : amendmentsWithin t0 t1 more = [] := by
    unfold amendmentsWithin
    rw [List.filter_eq_nil_iff]
    intro p hp
    have := hout p hp
    simp only [decide_eq_true_eq]
    omega
  rw [hnil] at a3 b3 c3
  simp only [List.map_nil, List.sum_nil] at a3 b3 c3
  have a3 : (n' : Rat) = n := by grind
  have b3 : (m' : Rat) = m := by grind
  have c3 : x' = x := by grind
  rw [a1, a2, b1, b2, c1, c2, Rat.intCast_inj.1 a3, Rat.intCast_inj.1 b3, c3]
  exact ⟨rfl, rfl, rfl⟩

theorem Timeboard.Reachable.getWorkshift_loc {tb : Timeboard L} {t : Time} {w : Workshift L} (hr : tb.Reachable) (hw : tb.getWorkshift t = .ok w) :
    tb.timeline.label w.loc = .ok w.label ∧ ∃ k, w.duration tb = .ok k := by
  have hv := hr.valid
  by_cases hin : tb.Within t
  · obtain ⟨k, hk⟩ := hv.at_exists hin
    obtain ⟨w', b1, b2, b3, b4⟩ := hv.getWorkshift_of_at hk
    rw [hw] at b1; cases b1
    exact ⟨by rw [b4]; exact b3, _, b2⟩
  · rw [(C02_get_workshift hr t none).2 hin] at hw; cases hw

/-- **C107**, a day off: let one more amendment put a workshift which was on duty off duty. Every interval with its key has one workshift less on duty and one
more off duty; likewise with the workshift's duration. -/
theorem C107_day_off {a : Args L} {heap heap1 heap2 : Heap L} {tb tb' : Timeboard L} {t : Time} {l : L}
    (h : Timeboard.new a heap = .ok (tb, heap1)) (h' : Timeboard.new { a with amendments := a.amendments ++ [(t, l)] } heap = .ok (tb', heap2))
    {v v' : Interval L} (hi : tb.HasInterval v) (hi' : tb'.HasInterval v') (hn : v.isVoid = false) (hn' : v'.isVoid = false) {t0 t1 : Time}
    (e0 : v.startTime tb = .ok (some t0)) (e1 : v.endTime tb = .ok (some t1)) (e0' : v'.startTime tb' = .ok (some t0)) (e1' : v'.endTime tb' = .ok (some t1))
    (hin : t0 ≤ t ∧ t ≤ t1) {s : Schedule L} (ho : tb.Owns s) {s' : Schedule L} (ho' : tb'.Owns s') (hsel : s'.selector = s.selector)
    {w : Workshift L} (hw : tb.getWorkshift t = .ok w) (hon : w.isOnDuty tb (some s) = .ok true) (hoff : s.selector l = false) :
    (∃ n, v.count tb .on (some s) = .ok (n + 1) ∧ v'.count tb' .on (some s') = .ok n) ∧
    (∃ n, v.count tb .off (some s) = .ok n ∧ v'.count tb' .off (some s') = .ok (n + 1)) ∧
    (∃ n k, w.duration tb = .ok k ∧ v.totalDuration tb .on (some s) = .ok (n + k) ∧ v'.totalDuration tb' .on (some s') = .ok n) ∧
    (∃ n k, w.duration tb = .ok k ∧ v.totalDuration tb .off (some s) = .ok n ∧ v'.totalDuration tb' .off (some s') = .ok (n + k)) := by
  have hr := Timeboard.Reachable.new h
  have hv := hr.valid
  have hlab : tb.timeline.label w.loc = .ok w.label := (hr.getWorkshift_loc hw).1
  have hsw : s.selector w.label = true := by
    rw [Workshift.isOnDuty_eq hlab] at hon
    simpa using hon
  obtain ⟨k, hk⟩ : ∃ k, w.duration tb = .ok k := (hr.getWorkshift_loc hw).2
  have hf : amendmentsWithin t0 t1 [(t, l)] = [(t, l)] := by
    unfold amendmentsWithin
    rw [List.filter_cons, if_pos (decide_eq_true hin)]; rfl
  have eff : ∀ g : L → Int → Rat, ([(t, l)].map (tb.effect g)).sum = g l k - g w.label k := by
    intro g
    simp only [List.map_cons, List.map_nil, List.sum_cons, List.sum_nil]
    unfold Timeboard.effect
    rw [hw]
    simp only [hk]
    grind
  have hq : ∀ l : L, (fun _ : L => some (0 : Rat)) l = some ((fun _ => 0) l) := fun _ => rfl
  have on := C107_amounts h h' hi hi' hn hn' e0 e1 e0' e1' (s := some s) (s' := some s') (fun x hx => by cases hx; exact ho) (fun x hx => by cases hx; exact ho') (sel := s.selector)
    rfl hsel (d := .on) (.inl rfl) hq
  have off := C107_amounts h h' hi hi' hn hn' e0 e1 e0' e1' (s := some s) (s' := some s') (fun x hx => by cases hx; exact ho) (fun x hx => by cases hx; exact ho') (sel := s.selector)
    rfl hsel (d := .off) (.inr (.inl rfl)) hq
  obtain ⟨⟨n, n', a1, a2, a3⟩, ⟨m, m', b1, b2, b3⟩, _⟩ := on
  obtain ⟨⟨i, i', c1, c2, c3⟩, ⟨j, j', d1, d2, d3⟩, _⟩ := off
  rw [hf, eff] at a3 b3 c3 d3
  simp only [dutyMatches, hsw, hoff, Bool.false_eq_true, if_false, if_true, Bool.not_true, Bool.not_false] at a3 b3 c3 d3
  have a4 : n = n' + 1 := by
    apply Rat.intCast_inj.1
    rw [Rat.intCast_add]; grind
  have b4 : m = m' + k := by
    apply Rat.intCast_inj.1
    rw [Rat.intCast_add]; grind
  have c4 : i' = i + 1 := by
    apply Rat.intCast_inj.1
    rw [Rat.intCast_add]; grind
  have d4 : j' = j + k := by
    apply Rat.intCast_inj.1
    rw [Rat.intCast_add]; grind
  subst a4 b4 c4 d4
  exact ⟨⟨n', a1, a2⟩, ⟨i, c1, c2⟩, ⟨m', k, hk, b1, b2⟩, ⟨j, k, hk, d1, d2⟩⟩

/-- A calendar with custom amendments for different days, and the one without. -/
theorem Preconfigured.amended {c : Calendar} (hc : Preconfigured c) {cs ce : Option Time} {custom : List (Time × Int)} {heap : Heap Int}
    {tb tb' : Timeboard Int} (h : c.new cs ce false false none heap = .ok tb) (h' : c.new cs ce false false (some custom) heap = .ok tb')
    (hd : custom.Pairwise (fun x y => dayOf x.1 ≠ dayOf y.1)) : tb.Amended tb' custom := by
  obtain ⟨hr, hsrc, _⟩ := hc.facts h
  obtain ⟨hr', hsrc', _⟩ := hc.facts h'
  have hv := hr.valid
  have hv' := hr'.valid
  obtain ⟨d, k, _, _, _, _, g⟩ := hc.board h
  obtain ⟨d', k', _, _, _, _, g'⟩ := hc.board h'
  obtain ⟨x, g1, _, g2⟩ := Timeboard.new_plain g
  obtain ⟨x', g1', _, g2'⟩ := Timeboard.new_plain g'
  have g3 : Timeboard.new (Calendar.args (cs.getD c.start) (ce.getD c.stop) []) heap = .ok (x, k) := g1
  have g3' : Timeboard.new (Calendar.args (cs.getD c.start) (ce.getD c.stop) []) heap = .ok (x', k') := g1'
  rw [g3] at g3'; cases g3'
  obtain ⟨e1, e2, e3, e4, e5⟩ := Timeline.amend_frame g2
  obtain ⟨e1', e2', e3', e4', e5'⟩ := Timeline.amend_frame g2'
  have hst : tb'.startTime = tb.startTime := by
    unfold Timeboard.startTime; rw [e1', e1]
  have hlen : tb'.timeline.len = tb.timeline.len := by unfold Timeline.len; rw [e2', e2]
  have hpos : ∀ t, tb'.timeline.wsPosition t = tb.timeline.wsPosition t :=
    Timeline.position_congr (by rw [e1', e1]) (by rw [e2', e2]) (by rw [e3', e3])
  obtain ⟨f, hf, hl⟩ := hc.label h
  obtain ⟨f', hf', hl'⟩ := hc.label h'
  rw [hf] at hf'; cases hf'
  have hlab : ∀ k, 0 ≤ k → k < tb.timeline.len → tb.timeline.label k =
      .ok ((f.dayLabel (dayOf tb.startTime + k)).getD (weekLabel (dayOf tb.startTime + k))) ∧ tb'.timeline.label k =
      .ok (((lastOf custom (dayOf tb.startTime + k)).or (f.dayLabel (dayOf tb.startTime + k))).getD (weekLabel (dayOf tb.startTime + k))) := by
    intro k h0 h1
    have q := hc.label_at h h0 h1
    have q' := hc.label_at h' h0 (by omega)
    rw [hst] at q'
    have hin : tb.Within ((dayOf tb.startTime + k) * nsDay) := by
      refine Classical.byContradiction fun hn => ?_
      obtain ⟨_, e⟩ := hv.wf.label_eq h0 h1
      have := (C02_get_workshift hr ((dayOf tb.startTime + k) * nsDay) none).2 hn
      simp only [labelAt, Bind.bind, Except.bind, this, e] at q
      cases q
    have hin' : tb'.Within ((dayOf tb.startTime + k) * nsDay) := by
      refine Classical.byContradiction fun hn => ?_
      obtain ⟨_, e⟩ := hv'.wf.label_eq h0 (show k < tb'.timeline.len by omega)
      have := (C02_get_workshift hr' ((dayOf tb.startTime + k) * nsDay) none).2 hn
      simp only [labelAt, Bind.bind, Except.bind, this, e] at q'
      cases q'
    rw [← q, ← q', (hl _ hin.1 hin.2).2.2, (hl' _ hin'.1 hin'.2).2.2, dayOf_mul]
    exact ⟨rfl, rfl⟩
  refine ⟨by rw [e1', e1], by rw [e2', e2], by rw [e3', e3], by rw [e4', e4], by rw [hsrc, hsrc'], ?_, ?_, ?_⟩
  · intro t v k hm hk
    have hday := hc.at_day h hk
    rw [(hlab k hk.1 hk.2.1).2, ← hday]
    obtain ⟨i, hi⟩ := List.mem_iff_getElem?.1 hm
    rw [lastOf_index hi rfl]
    · rfl
    · intro j y hij hj
      obtain ⟨hi1, hi2⟩ := List.getElem?_eq_some_iff.1 hi
      obtain ⟨hj1, hj2⟩ := List.getElem?_eq_some_iff.1 hj
      have := List.pairwise_iff_getElem.1 hd i j hi1 hj1 hij
      rw [hi2, hj2] at this
      exact Ne.symm this
  · intro k h0 h1 hno
    rw [(hlab k h0 h1).1, (hlab k h0 h1).2, lastOf_none]
    · rfl
    · intro y hy hday
      apply hno y.1 y.2 hy
      rw [hv.at_iff, hv.wf.wsPosition_ok_iff, hc.grid' h h0 (by omega), hc.grid' h (k := k + 1) (by omega) (by omega)]
      unfold dayOf nsDay at *
      exact ⟨h0, h1, by omega, by omega⟩
  · refine hd.imp ?_
    intro p q hpq k hp hq
    exact hpq ((hc.at_day h hp).trans (hc.at_day h hq).symm)

/-- **C107**, the ready-made calendars: custom amendments for different days change the number of working days, the number of days off and the working hours
of an interval by what they change on the days of the interval. -/
theorem C107_calendars {c : Calendar} (hc : Preconfigured c) {cs ce : Option Time} {custom : List (Time × Int)} {heap : Heap Int}
    {tb tb' : Timeboard Int} (h : c.new cs ce false false none heap = .ok tb) (h' : c.new cs ce false false (some custom) heap = .ok tb')
    (hd : custom.Pairwise (fun x y => dayOf x.1 ≠ dayOf y.1))
    {v v' : Interval Int} (hi : tb.HasInterval v) (hi' : tb'.HasInterval v') (hn : v.isVoid = false) (hn' : v'.isVoid = false) {t0 t1 : Time}
    (e0 : v.startTime tb = .ok (some t0)) (e1 : v.endTime tb = .ok (some t1)) (e0' : v'.startTime tb' = .ok (some t0)) (e1' : v'.endTime tb' = .ok (some t1)) :
    (∃ n n', v.count tb .on (some tb.defaultSchedule) = .ok n ∧ v'.count tb' .on (some tb'.defaultSchedule) = .ok n' ∧
      (n' : Rat) = n + ((amendmentsWithin t0 t1 custom).map (tb.effect (fun l _ => if l ≠ 0 then 1 else 0))).sum) ∧
    (∃ n n', v.count tb .off (some tb.defaultSchedule) = .ok n ∧ v'.count tb' .off (some tb'.defaultSchedule) = .ok n' ∧
      (n' : Rat) = n + ((amendmentsWithin t0 t1 custom).map (tb.effect (fun l _ => if l = 0 then 1 else 0))).sum) ∧
    (∃ n n', v.worktime tb hours .on (some tb.defaultSchedule) = .ok n ∧ v'.worktime tb' hours .on (some tb'.defaultSchedule) = .ok n' ∧
      n' = n + ((amendmentsWithin t0 t1 custom).map (tb.effect (fun l _ => (l : Rat)))).sum) := by
  obtain ⟨hr, hsrc, hsel⟩ := hc.facts h
  obtain ⟨hr', hsrc', hsel'⟩ := hc.facts h'
  have ham := hc.amended h h' hd
  have key := fun {d : Duty} (hd : d = .on ∨ d = .off ∨ d = .any) => ham.amounts hr hr' hi hi' hn hn' e0 e1 e0' e1' (s := some tb.defaultSchedule) (s' := some tb'.defaultSchedule)
    (fun x hx => by cases hx; exact hr.valid.default_owned) (fun x hx => by cases hx; exact hr'.valid.default_owned) (sel := fun l => l != 0) (funext hsel) (funext hsel') hd
    (num := hours) (q := fun l => (l : Rat)) (fun _ => rfl)
  obtain ⟨⟨n, n', a1, a2, a3⟩, _, ⟨m, m', b1, b2, b3⟩⟩ := key (.inl rfl)
  obtain ⟨⟨i, i', c1, c2, c3⟩, _, _⟩ := key (.inr (.inl rfl))
  rw [hsrc] at b3
  refine ⟨⟨n, n', a1, a2, ?_⟩, ⟨i, i', c1, c2, ?_⟩, ⟨m, m', b1, b2, ?_⟩⟩
  · rw [a3]; congr 4; funext l n; simp [dutyMatches]
  · rw [c3]; congr 4; funext l n; simp [dutyMatches]
  · rw [b3]; congr 4; funext l n; by_cases hl : l = 0 <;> simp [dutyMatches, hl]

/-- One more day off on the board `week`, a Thursday. -/
def weekMore : Timeboard Int := board { weekArgs with amendments := weekArgs.amendments ++ [(date 2017 1 12 + 5 * nsHour, 0)] } (by decide +kernel)

example : let days := fun (tb : Timeboard Int) a b d => (tb.getInterval (some (.pair (some a) (some b)))).bind (fun v => v.count tb d)
    (week.getWorkshift (date 2017 1 12 + 5 * nsHour)).bind (fun w => w.isOnDuty week) = .ok true ∧
    days week (date 2017 1 9) (date 2017 1 15) .on = .ok 5 ∧ days weekMore (date 2017 1 9) (date 2017 1 15) .on = .ok 4 ∧
    days week (date 2017 1 9) (date 2017 1 15) .off = .ok 2 ∧ days weekMore (date 2017 1 9) (date 2017 1 15) .off = .ok 3 ∧
    days week (date 2017 1 13) (date 2017 1 15) .on = .ok 1 ∧ days weekMore (date 2017 1 13) (date 2017 1 15) .on = .ok 1 := by
  decide +kernel

example : (amendmentsWithin (date 2017 1 9) (date 2017 1 15) [(date 2017 1 12 + 5 * nsHour, (0 : Int))]).map (week.effect (fun l _ => if dutyMatches .on (fun l => l != 0) l then 1 else 0)) = [-1] := by
  decide +kernel

end TB
