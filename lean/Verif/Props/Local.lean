import Verif.Lemmas.Local4
import Verif.Props.Reference
import Verif.Props.Amend
import Verif.Lemmas.WorkingDays
import Verif.Props.Layout
import Verif.Lemmas.SameTimes2
/-! Property C112: everything is told by the workshifts in question. -/
namespace TB
open TB.Ex Reference
variable {L : Type} {tb tb' : Timeboard L} {s e : Time}

/-- **C112**, `get_interval` by two points in time or by a calendar period, with any `clip_period`, `closed` and schedules. -/
theorem C112_get_interval (h : tb.Reachable) (h' : tb'.Reachable) (ha : tb.AgreesOn tb' s e) {ref : Option IvlRef} {length : Option Int} {period : Option Freq}
    (hw : AskedWithin s e ref length period) (clip : Bool) (closed : String) {sch sch' : Option (Schedule L)} (hs : tb.OwnsOpt sch) (hs' : tb'.OwnsOpt sch') :
    tb.SameInterval tb' s e sch sch' (tb.getInterval ref length period clip closed sch) (tb'.getInterval ref length period clip closed sch') := by
  have hv := h.valid
  have hv' := h'.valid
  obtain ⟨xs, hx⟩ := hv.listedAs
  obtain ⟨xs', hx'⟩ := hv'.listedAs
  obtain ⟨R, a, a', hr, hr'⟩ := ha.runs hv hv' hx hx'
  have wrong : ¬ (closed = "00" ∨ closed = "01" ∨ closed = "10" ∨ closed = "11") → tb.SameInterval tb' s e sch sch'
      (tb.getInterval ref length period clip closed sch) (tb'.getInterval ref length period clip closed sch') := by
    intro hc
    unfold Timeboard.getInterval
    rw [if_pos (by simpa using hc), if_pos (by simpa using hc)]
    exact rfl
  by_cases hc : closed = "00" ∨ closed = "01" ∨ closed = "10" ∨ closed = "11"
  · have byP : ∀ p : Period, s ≤ p.startTime → p.endTime ≤ e → (∀ zs : List (Shift L), Reference.getInterval zs ref length period clip closed = Reference.byPeriod zs clip closed p) →
        tb.SameInterval tb' s e sch sch' (tb.getInterval ref length period clip closed sch) (tb'.getInterval ref length period clip closed sch') := by
      intro p p1 p2 hp
      apply sameInterval_of_run h h' hx hx' hr hr' hs hs' (r := Reference.byPeriod R clip closed p)
      · intro ns hn k hk
        exact byPeriod_mem hn k hk
      · rw [hp, hr.byPeriod p1 p2]
      · rw [hp, hr'.byPeriod p1 p2]
    unfold AskedWithin at hw
    split at hw
    · rename_i t u
      obtain ⟨a1, a2, a3, a4⟩ := hw
      obtain ⟨k, k0, k1, _, _, e1, _⟩ := hr.place a1 a2
      obtain ⟨l, l0, l1, _, _, e3, _⟩ := hr.place a3 a4
      apply sameInterval_of_run h h' hx hx' hr hr' hs hs' (r := fromTo closed (place R t) (place R u))
      · intro ns hn
        rw [e1, e3] at hn
        exact fromTo_mem hn k0 l1
      · unfold Reference.getInterval; rw [if_neg (fun h => h hc)]; exact hr.byPair a1 a2 a3 a4
      · unfold Reference.getInterval; rw [if_neg (fun h => h hc)]; exact hr'.byPair a1 a2 a3 a4
    · rename_i q p
      apply byP p hw.1 hw.2
      intro zs
      unfold Reference.getInterval; rw [if_neg (fun h => h hc)]
      cases period <;> rfl
    · apply byP _ hw.1 hw.2
      intro zs
      unfold Reference.getInterval; rw [if_neg (fun h => h hc)]
    · exact hw.elim
  · exact wrong hc

/-- **C112**, `get_interval` by length: if the interval obtained with `closed="11"` is in the time on which the timeboards agree. -/
theorem C112_by_length (h : tb.Reachable) (h' : tb'.Reachable) (ha : tb.AgreesOn tb' s e) {ref : IvlRef} {t : Time} (ht : ref.toTime? = some t) (h1 : s ≤ t) (h2 : t ≤ e)
    {n : Int} {clip0 : Bool} {sch0 : Option (Schedule L)} (hs0 : tb.OwnsOpt sch0) {v : Interval L} (hv0 : tb.getInterval (some ref) (some n) none clip0 "11" sch0 = .ok v) {t1 u1 : Time} (hsp : v.Spans tb t1 u1)
    (h3 : s ≤ t1) (h4 : u1 ≤ e) (clip : Bool) (closed : String) {sch sch' : Option (Schedule L)} (hs : tb.OwnsOpt sch) (hs' : tb'.OwnsOpt sch') :
    tb.SameInterval tb' s e sch sch' (tb.getInterval (some ref) (some n) none clip closed sch) (tb'.getInterval (some ref) (some n) none clip closed sch') := by
  have hv := h.valid
  have hv' := h'.valid
  obtain ⟨xs, hx⟩ := hv.listedAs
  obtain ⟨xs', hx'⟩ := hv'.listedAs
  obtain ⟨R, a, a', hr, hr'⟩ := ha.runs hv hv' hx hx'
  by_cases hc : closed = "00" ∨ closed = "01" ∨ closed = "10" ∨ closed = "11"
  · have hn0 : n ≠ 0 := by
      intro hn
      subst hn
      have := C98_get_interval h hx (some ref) (some 0) none clip0 "11" sch0
      rw [hv0] at this
      cases ref <;> cases this
    have byL : ∀ (zs : List (Shift L)) (cl : Bool) (c : String), (c = "00" ∨ c = "01" ∨ c = "10" ∨ c = "11") →
        Reference.getInterval zs (some ref) (some n) none cl c = Reference.byLength zs c t n := by
      intro zs cl c hc
      unfold Reference.getInterval
      rw [if_neg (fun h => h hc)]
      cases ref with
      | pair a b => cases ht
      | short => cases ht
      | point t0 =>
        cases ht
        split <;> first | rfl | (simp_all; done) | skip
        all_goals simp_all
      | period p =>
        cases ht
        split <;> first | rfl | (simp_all; done) | skip
        all_goals simp_all
    have hf := ((Timeboard.getInterval_has hs0 hv0).1).fine hv
    obtain ⟨hp, _, p, q, a1, a2, a3, a4, a5, _, _, a8, _, _⟩ := hr.interval hv hx hf hsp h3 h4
    obtain ⟨k, k0, k1, _, _, e1, e2⟩ := hr.place h1 h2
    obtain ⟨k', k0', k1', _, _, e1', e2'⟩ := hr'.place h1 h2
    rw [e1] at e1'
    cases e1'
    have hq := C98_get_interval h hx (some ref) (some n) none clip0 "11" sch0
    rw [hv0, byL xs clip0 "11" (by simp)] at hq
    have hq : Except.ok v.numbers = Reference.byLength xs "11" t n := hq
    unfold Reference.byLength at hq
    rw [e2] at hq
    simp only at hq
    have hle := hr.length_le
    have hle' := hr'.length_le
    -- where the interval is in the run
    have hin : 0 ≤ (if 0 < n then k else k + n + 1) ∧ (if 0 < n then k + n - 1 else k) < R.length := by
      generalize hi : (if 0 < n then k + (a : Int) else k + a + n + 1) = i at hq
      generalize hj : (if 0 < n then k + (a : Int) + n - 1 else k + a) = j at hq
      split at hq
      · have := (orElse_eq_ok (show Reference.orElse _ _ = _ from hq.symm)).1
        have cut : ∀ ms, cutTail "11" (cutHead "11" ms) = ms := by intro ms; rfl
        rw [cut, a8, ← intRange_shiftBy] at this
        have hij : i ≤ j := by by_cases hn : 0 < n <;> simp only [hn, if_true, if_false] at hi hj <;> omega
        have m2 : i ∈ intRange (p + (a : Int)) (q + 1 + a) := by rw [← this, mem_intRange]; omega
        have m3 : j ∈ intRange (p + (a : Int)) (q + 1 + a) := by rw [← this, mem_intRange]; omega
        rw [mem_intRange] at m2 m3
        by_cases hn : 0 < n <;> simp only [hn, if_true, if_false] at hi hj ⊢ <;> omega
      · cases hq
    apply sameInterval_of_run h h' hx hx' hr hr' hs hs' (r := Reference.byLength R closed t n)
    · intro ns hn
      rw [byLength_at e1 hin.1 hin.2] at hn
      exact fromTo_mem hn hin.1 hin.2
    · rw [byL xs clip closed hc, byLength_at e1 hin.1 hin.2, ← fromTo_shiftBy, byLength_at e2 (by split at hin <;> simp_all <;> omega) (by split at hin <;> simp_all <;> omega)]
      congr 2 <;> split <;> omega
    · rw [byL xs' clip closed hc, byLength_at e1 hin.1 hin.2, ← fromTo_shiftBy, byLength_at e2' (by split at hin <;> simp_all <;> omega) (by split at hin <;> simp_all <;> omega)]
      congr 2 <;> split <;> omega
  · unfold Timeboard.getInterval
    rw [if_pos (by simpa using hc), if_pos (by simpa using hc)]
    exact rfl

section
variable (h : tb.Reachable) (h' : tb'.Reachable) (ha : tb.AgreesOn tb' s e)
include h h' ha

/-- **C112**, `get_workshift` with any schedules. -/
theorem C112_get_workshift {t : Time} (h1 : s ≤ t) (h2 : t ≤ e) (sch sch' : Option (Schedule L)) :
    ∃ w w' x, tb.getWorkshift t sch = .ok w ∧ tb'.getWorkshift t sch' = .ok w' ∧ w.view tb = some x ∧ w'.view tb' = some x := by
  have hv := h.valid
  have hv' := h'.valid
  obtain ⟨xs, hx⟩ := hv.listedAs
  obtain ⟨xs', hx'⟩ := hv'.listedAs
  obtain ⟨R, a, a', hr, hr'⟩ := ha.runs hv hv' hx hx'
  obtain ⟨k, k0, k1, k2, k3, _, _⟩ := hr.place h1 h2
  obtain ⟨k', k0', k1', k2', k3', _, _⟩ := hr'.place h1 h2
  rw [k2] at k2'
  cases k2'
  have e1 := hx.getWorkshift hv t sch
  have e2 := hx'.getWorkshift hv' t sch'
  rw [k3] at e1
  rw [k3'] at e2
  cases g : tb.getWorkshift t sch with
  | error er => rw [g] at e1; cases e1
  | ok w =>
    cases g' : tb'.getWorkshift t sch' with
    | error er => rw [g'] at e2; cases e2
    | ok w' =>
      rw [g] at e1
      rw [g'] at e2
      have e1 : w.loc = _ := Except.ok.inj e1
      have e2 : w'.loc = _ := Except.ok.inj e2
      obtain ⟨_, _, _, _, _, x, v1, v2, _, _⟩ := hx.found hv g
      obtain ⟨_, _, _, _, _, x', v1', v2', _, _⟩ := hx'.found hv' g'
      rw [e1, hr.get k0 k1] at v2
      rw [e2, hr'.get k0 k1, v2] at v2'
      cases v2'
      exact ⟨w, w', x, rfl, rfl, v1, v1'⟩

/-- **C112**, rolling.  If the first workshift with the duty from which steps are counted, and the one reached, are in the time on which the
timeboards agree, then the other timeboard leads to the same workshift. -/
theorem C112_rollforward {k k' : Int} {sw sw' sch sch' : Option (Schedule L)} {w w' : Workshift L} (k0 : 0 ≤ k) (k0' : 0 ≤ k') (hw : Workshift.new tb k sw = .ok w)
    (hw' : Workshift.new tb' k' sw' = .ok w') (hsw : tb.OwnsOpt sw) (hsw' : tb'.OwnsOpt sw') (hs : tb.OwnsOpt sch) (hs' : tb'.OwnsOpt sch')
    (hsel : (sch.getD w.schedule).selector = (sch'.getD w'.schedule).selector)
    {t : Time} (ht : w.startTime tb = .ok t) (ht' : w'.startTime tb' = .ok t) (h1 : s ≤ t) (h2 : t ≤ e) {n : Int} {d : Duty} {w0 w1 : Workshift L} {x0 x1 : Shift L}
    (hz : w.rollforward tb 0 d sch = .ok w0) (vz : w0.view tb = some x0) (hz1 : x0.stop ≤ e)
    (hn : w.rollforward tb n d sch = .ok w1) (vn : w1.view tb = some x1) (hn0 : s ≤ x1.start) (hn1 : x1.stop ≤ e) :
    ∃ w1', w'.rollforward tb' n d sch' = .ok w1' ∧ w1'.view tb' = some x1 := by
  have hv := h.valid
  have hv' := h'.valid
  obtain ⟨xs, hx⟩ := hv.listedAs
  obtain ⟨xs', hx'⟩ := hv'.listedAs
  obtain ⟨R, a, a', hr, hr'⟩ := ha.runs hv hv' hx hx'
  obtain ⟨hk, hk', p, p0, p1, rfl, rfl⟩ := shared_workshift h h' hx hx' hr hr' k0 k0' hw hw' ht ht' h1 h2
  have r0 := ((C98_workshifts h hx hs).2 _ sw w k0 hk hsw hw 0 d).1
  have r1 := ((C98_workshifts h hx hs).2 _ sw w k0 hk hsw hw n d).1
  have r1' := ((C98_workshifts h' hx' hs').2 _ sw' w' k0' hk' hsw' hw' n d).1
  rw [hz] at r0
  rw [hn] at r1
  have range : ∀ w2 : Workshift L, (∃ q sc, Workshift.new tb q sc = .ok w2) → (∃ m, Reference.rollforward xs (sch.getD w.schedule).selector (p + a) m d = .ok w2.loc) →
      0 ≤ w2.loc ∧ w2.view tb = seen xs w2.loc := by
    rintro w2 ⟨q, sc, hq⟩ ⟨m, hm⟩
    have hin : 0 ≤ w2.loc ∧ w2.loc < tb.timeline.len := by
      unfold Reference.rollforward at hm
      split at hm
      · cases hm
      · rename_i d' _
        apply hx.having_range (sch.getD w.schedule).selector d'
        split at hm
        · cases hm
        · rename_i k0 later hl
          split at hm
          · have := List.mem_of_getElem? (orOut_eq_ok hm)
            rw [← hl] at this
            exact (List.mem_filter.1 this).1
          · exact (List.mem_filter.1 (List.mem_reverse.1 (List.mem_of_getElem? (orOut_eq_ok hm)))).1
    have := Workshift.new_loc hq
    exact ⟨hin.1, new_view hx hv (p := q) (by omega) (by omega) hq⟩
  have q0 := range w0 (Workshift.rollforward_new hz) ⟨0, r0.symm⟩
  have q1 := range w1 (Workshift.rollforward_new hn) ⟨n, r1.symm⟩
  rw [vz] at q0
  rw [vn] at q1
  have hz2 : (a : Int) ≤ w0.loc := by
    have := r0.symm
    unfold Reference.rollforward at this
    split at this
    · cases this
    · rename_i d' _
      split at this
      · cases this
      · rename_i k0 later hl
        rw [if_pos (by omega)] at this
        have hk0 : k0 = w0.loc := by
          have := orOut_eq_ok this
          simpa using this
        have hm : k0 ∈ (Reference.having xs (sch.getD w.schedule).selector d').filter (fun j => decide (p + (a : Int) ≤ j)) := by rw [hl]; exact List.mem_cons_self
        have := of_decide_eq_true (List.mem_filter.1 hm).2
        omega
  have i0 := seen_in_run hr q0.1 q0.2.symm (.inr hz2) (.inl hz1)
  have i1 := seen_in_run hr q1.1 q1.2.symm (.inl hn0) (.inl hn1)
  have key := hr.rollforward p0 p1 r0.symm i0.2 r1.symm i1.1 i1.2
  rw [hsel] at key
  have key' := hr'.rollforward_of p0 p1 key
  rw [key'] at r1'
  cases hg : w'.rollforward tb' n d sch' with
  | error er => rw [hg] at r1'; cases r1'
  | ok w1' =>
    rw [hg] at r1'
    have r1' : w1'.loc = w1.loc - a + a' := Except.ok.inj r1'
    refine ⟨w1', rfl, ?_⟩
    obtain ⟨q, sc, hq⟩ := Workshift.rollforward_new hg
    have := Workshift.new_loc hq
    have hle := hr'.length_le
    have hl' := hx'.1
    rw [new_view hx' hv' (p := q) (by omega) (by omega) hq, r1', hr'.seen_shift (by omega) (by omega), ← hr.seen_shift (by omega) (by omega), q1.2,
      show w1.loc - (a : Int) + a = w1.loc from by omega]

/-- **C112**, rolling back. -/
theorem C112_rollback {k k' : Int} {sw sw' sch sch' : Option (Schedule L)} {w w' : Workshift L} (k0 : 0 ≤ k) (k0' : 0 ≤ k') (hw : Workshift.new tb k sw = .ok w)
    (hw' : Workshift.new tb' k' sw' = .ok w') (hsw : tb.OwnsOpt sw) (hsw' : tb'.OwnsOpt sw') (hs : tb.OwnsOpt sch) (hs' : tb'.OwnsOpt sch')
    (hsel : (sch.getD w.schedule).selector = (sch'.getD w'.schedule).selector)
    {t : Time} (ht : w.startTime tb = .ok t) (ht' : w'.startTime tb' = .ok t) (h1 : s ≤ t) (h2 : t ≤ e) {n : Int} {d : Duty} {w0 w1 : Workshift L} {x0 x1 : Shift L}
    (hz : w.rollback tb 0 d sch = .ok w0) (vz : w0.view tb = some x0) (hz1 : s ≤ x0.start)
    (hn : w.rollback tb n d sch = .ok w1) (vn : w1.view tb = some x1) (hn0 : s ≤ x1.start) (hn1 : x1.stop ≤ e) :
    ∃ w1', w'.rollback tb' n d sch' = .ok w1' ∧ w1'.view tb' = some x1 := by
  have hv := h.valid
  have hv' := h'.valid
  obtain ⟨xs, hx⟩ := hv.listedAs
  obtain ⟨xs', hx'⟩ := hv'.listedAs
  obtain ⟨R, a, a', hr, hr'⟩ := ha.runs hv hv' hx hx'
  obtain ⟨hk, hk', p, p0, p1, rfl, rfl⟩ := shared_workshift h h' hx hx' hr hr' k0 k0' hw hw' ht ht' h1 h2
  have r0 := ((C98_workshifts h hx hs).2 _ sw w k0 hk hsw hw 0 d).2
  have r1 := ((C98_workshifts h hx hs).2 _ sw w k0 hk hsw hw n d).2
  have r1' := ((C98_workshifts h' hx' hs').2 _ sw' w' k0' hk' hsw' hw' n d).2
  rw [hz] at r0
  rw [hn] at r1
  have range : ∀ w2 : Workshift L, (∃ q sc, Workshift.new tb q sc = .ok w2) → (∃ m, Reference.rollback xs (sch.getD w.schedule).selector (p + a) m d = .ok w2.loc) →
      0 ≤ w2.loc ∧ w2.view tb = seen xs w2.loc := by
    rintro w2 ⟨q, sc, hq⟩ ⟨m, hm⟩
    have hin : 0 ≤ w2.loc ∧ w2.loc < tb.timeline.len := by
      unfold Reference.rollback at hm
      split at hm
      · cases hm
      · rename_i d' _
        apply hx.having_range (sch.getD w.schedule).selector d'
        split at hm
        · cases hm
        · rename_i k0 later hl
          split at hm
          · have := List.mem_of_getElem? (orOut_eq_ok hm)
            rw [← hl] at this
            exact (List.mem_filter.1 (List.mem_reverse.1 this)).1
          · exact (List.mem_filter.1 (List.mem_of_getElem? (orOut_eq_ok hm))).1
    have := Workshift.new_loc hq
    exact ⟨hin.1, new_view hx hv (p := q) (by omega) (by omega) hq⟩
  have q0 := range w0 (Workshift.rollback_new hz) ⟨0, r0.symm⟩
  have q1 := range w1 (Workshift.rollback_new hn) ⟨n, r1.symm⟩
  rw [vz] at q0
  rw [vn] at q1
  have hz2 : w0.loc < a + R.length := by
    have := r0.symm
    unfold Reference.rollback at this
    split at this
    · cases this
    · rename_i d' _
      split at this
      · cases this
      · rename_i k0 later hl
        rw [if_pos (by omega)] at this
        have hk0 : k0 = w0.loc := by
          have := orOut_eq_ok this
          simpa using this
        have hm : k0 ∈ ((Reference.having xs (sch.getD w.schedule).selector d').filter (fun j => decide (j ≤ p + (a : Int)))).reverse := by rw [hl]; exact List.mem_cons_self
        have := of_decide_eq_true (List.mem_filter.1 (List.mem_reverse.1 hm)).2
        omega
  have i0 := seen_in_run hr q0.1 q0.2.symm (.inl hz1) (.inr hz2)
  have i1 := seen_in_run hr q1.1 q1.2.symm (.inl hn0) (.inl hn1)
  have key := hr.rollback p0 p1 r0.symm i0.1 r1.symm i1.1 i1.2
  rw [hsel] at key
  have key' := hr'.rollback_of p0 p1 key
  rw [key'] at r1'
  cases hg : w'.rollback tb' n d sch' with
  | error er => rw [hg] at r1'; cases r1'
  | ok w1' =>
    rw [hg] at r1'
    have r1' : w1'.loc = w1.loc - a + a' := Except.ok.inj r1'
    refine ⟨w1', rfl, ?_⟩
    obtain ⟨q, sc, hq⟩ := Workshift.rollback_new hg
    have := Workshift.new_loc hq
    have hle := hr'.length_le
    have hl' := hx'.1
    rw [new_view hx' hv' (p := q) (by omega) (by omega) hq, r1', hr'.seen_shift (by omega) (by omega), ← hr.seen_shift (by omega) (by omega), q1.2,
      show w1.loc - (a : Int) + a = w1.loc from by omega]

variable {v v' : Interval L} (hi : tb.HasInterval v) (hi' : tb'.HasInterval v') {t u : Time} (hsp : v.Spans tb t u) (hsp' : v'.Spans tb' t u) (h1 : s ≤ t) (h2 : u ≤ e)
  {sch sch' : Option (Schedule L)} (hs : tb.OwnsOpt sch) (hs' : tb'.OwnsOpt sch') (hsel : (sch.getD v.schedule).selector = (sch'.getD v'.schedule).selector)
include hi hi' hsp hsp' h1 h2 hs hs' hsel

/-- **C112**, intervals with the same start and the same end, in the time on which the timeboards agree: the same workshifts, counts, durations
and work time, for every duty and schedules with the same selector. -/
theorem C112_intervals (d : Duty) :
    (v.workshifts tb d sch).map (fun ws => ws.map (fun w => w.view tb)) = (v'.workshifts tb' d sch').map (fun ws => ws.map (fun w => w.view tb')) ∧
    v.count tb d sch = v'.count tb' d sch' ∧
    (∀ n, (v.nth tb n d sch).map (fun w => w.view tb) = (v'.nth tb' n d sch').map (fun w => w.view tb')) ∧
    v.totalDuration tb d sch = v'.totalDuration tb' d sch' ∧
    (tb.worktimeSource = tb'.worktimeSource → ∀ num, v.worktime tb num d sch = v'.worktime tb' num d sch') := by
  have hv := h.valid
  have hv' := h'.valid
  obtain ⟨xs, hx⟩ := hv.listedAs
  obtain ⟨xs', hx'⟩ := hv'.listedAs
  obtain ⟨R, a, a', hr, hr'⟩ := ha.runs hv hv' hx hx'
  have hf := hi.fine hv
  have hf' := hi'.fine hv'
  obtain ⟨ns, hn, n1, n2, _, _⟩ := hr.intervals hr' hv hv' hx hx' hf hf' hsp hsp' h1 h2
  refine ⟨?_, ?_, ?_, ?_, ?_⟩
  · rw [hx.workshifts_seen hv hf hs, hx'.workshifts_seen hv' hf' hs', n1, n2, hr.workshifts hn, hr'.workshifts hn, hsel]
    unfold Reference.workshifts known
    split
    · simp only [Except.map]
      rw [map_seen hr (fun k hk => hn k (mem_among hk)), map_seen hr' (fun k hk => hn k (mem_among hk))]
    · rfl
  · rw [hx.count hv hf hs, hx'.count hv' hf' hs', n1, n2, hr.count hn, hr'.count hn, hsel]
  · intro n
    rw [hx.nth_seen hv hf hs, hx'.nth_seen hv' hf' hs', n1, n2, hr.nth hn, hr'.nth hn, hsel]
    cases hq : Reference.nth R (sch'.getD v'.schedule).selector ns n d with
    | error er => rfl
    | ok q =>
      have hq2 : q ∈ ns := by
        unfold Reference.nth known at hq
        split at hq
        · have := orOut_eq_ok hq
          split at this
          · exact mem_among (List.mem_of_getElem? this)
          · exact mem_among (List.mem_reverse.1 (List.mem_of_getElem? this))
        · cases hq
      show Except.ok (seen xs (q + a)) = Except.ok (seen xs' (q + a'))
      rw [hr.seen_shift (hn q hq2).1 (hn q hq2).2, hr'.seen_shift (hn q hq2).1 (hn q hq2).2]
  · rw [hx.totalDuration hv hf hs, hx'.totalDuration hv' hf' hs', n1, n2, hr.totalDuration hn, hr'.totalDuration hn, hsel]
  · intro hsrc num
    rw [hx.worktime hv hf hs, hx'.worktime hv' hf' hs', n1, n2, hr.worktime hn, hr'.worktime hn, hsel, hsrc]

/-- **C112**, `count_periods`: if also the calendar periods of the first and of the last moment are in the time on which the timeboards agree. -/
theorem C112_count_periods (freq : Freq) (d : Duty) (p1 : s ≤ (Period.ofTime freq t).startTime) (p2 : (Period.ofTime freq u).endTime ≤ e) :
    v.countPeriods tb freq d sch = v'.countPeriods tb' freq d sch' := by
  have hv := h.valid
  have hv' := h'.valid
  obtain ⟨xs, hx⟩ := hv.listedAs
  obtain ⟨xs', hx'⟩ := hv'.listedAs
  obtain ⟨R, a, a', hr, hr'⟩ := ha.runs hv hv' hx hx'
  have hf := hi.fine hv
  have hf' := hi'.fine hv'
  obtain ⟨ns, hn, n1, n2, n3, n4⟩ := hr.intervals hr' hv hv' hx hx' hf hf' hsp hsp' h1 h2
  have hp : ∀ i j o, ns.head? = some i → ns.getLast? = some j → freq.base.ordOf (Reference.getInt R Shift.start i) ≤ o →
      o ≤ freq.base.ordOf (Reference.getInt R Shift.stop j) → s ≤ (Period.mk freq o).startTime ∧ (Period.mk freq o).endTime ≤ e := by
    intro i j o hi hj g1 g2
    rw [n3 i hi] at g1
    rw [n4 j hj] at g2
    have m1 := (freq.base.startOf_le_startOf _ _).2 g1
    have m2 := (freq.base.startOf_le_startOf _ _).2 (show o + freq.mult ≤ freq.base.ordOf u + freq.mult by omega)
    simp only [Period.ofTime, Period.startTime, Period.endTime] at p1 p2 ⊢
    omega
  rw [C98_count_periods h hx hi hs, C98_count_periods h' hx' hi' hs', n1, n2, hr.countPeriods hn hp, hr'.countPeriods hn hp, hsel]

/-- **C112**, two intervals. -/
theorem C112_two_intervals {y y' : Interval L} (hy : tb.HasInterval y) (hy' : tb'.HasInterval y') {t2 u2 : Time} (hy1 : y.Spans tb t2 u2) (hy2 : y'.Spans tb' t2 u2)
    (h3 : s ≤ t2) (h4 : u2 ≤ e) (d : Duty) :
    v.whatPortionOf tb y d sch = v'.whatPortionOf tb' y' d sch' ∧
    ∃ z z', v.overlap tb y sch = .ok z ∧ v'.overlap tb' y' sch' = .ok z' ∧ z.startTime tb = z'.startTime tb' ∧ z.endTime tb = z'.endTime tb' := by
  have hv := h.valid
  have hv' := h'.valid
  obtain ⟨xs, hx⟩ := hv.listedAs
  obtain ⟨xs', hx'⟩ := hv'.listedAs
  obtain ⟨R, a, a', hr, hr'⟩ := ha.runs hv hv' hx hx'
  have hf := hi.fine hv
  have hf' := hi'.fine hv'
  have hg := hy.fine hv
  have hg' := hy'.fine hv'
  obtain ⟨ns, hn, n1, n2, _, _⟩ := hr.intervals hr' hv hv' hx hx' hf hf' hsp hsp' h1 h2
  obtain ⟨ms, hm, m1, m2, _, _⟩ := hr.intervals hr' hv hv' hx hx' hg hg' hy1 hy2 h3 h4
  obtain ⟨o1, o2⟩ := C98_two_intervals h hx hi hs hy d
  obtain ⟨o1', o2'⟩ := C98_two_intervals h' hx' hi' hs' hy' d
  refine ⟨by rw [o2, o2', n1, n2, m1, m2, hr.portion hn hm, hr'.portion hn hm, hsel], ?_⟩
  obtain ⟨z, z1, z2, _, _⟩ := hf.overlap_ok hg hs
  obtain ⟨z', z1', z2', _, _⟩ := hf'.overlap_ok hg' hs'
  refine ⟨z, z', z1, z1', ?_⟩
  rw [z1, n1, m1, overlap_shiftBy] at o1
  rw [z1', n2, m2, overlap_shiftBy] at o1'
  have o1 : z.numbers = _ := Except.ok.inj o1
  have o1' : z'.numbers = _ := Except.ok.inj o1'
  have ho : ∀ k ∈ overlap ns ms, 0 ≤ k ∧ k < R.length := fun k hk => hn k (List.mem_filter.1 hk).1
  generalize overlap ns ms = qs at *
  obtain ⟨t1, t2⟩ := hr.times ho hv hx z2 o1
  obtain ⟨t1', t2'⟩ := hr'.times ho hv' hx' z2' o1'
  rw [t1, t2, t1', t2']
  exact ⟨rfl, rfl⟩

end

/-! ### Timeboards which agree -/

theorem Timeboard.Valid.getWorkshift_at {t : Time} {k : Int} (hv : tb.Valid) (h : tb.At t k) (sch : Option (Schedule L)) :
    tb.getWorkshift t sch = Workshift.new tb k sch := by
  unfold Timeboard.getWorkshift
  rw [hv.locate_at h]

theorem Workshift.getWorkshift_times {w : Workshift L} {t : Time} (hv : tb.Valid) (h : tb.getWorkshift t = .ok w) : 0 ≤ w.loc ∧ w.loc < tb.timeline.len ∧
    w.startTime tb = .ok (tb.timeline.frame.unitStart (tb.timeline.bnd w.loc)) ∧ w.endTime tb = .ok (tb.timeline.frame.unitStart (tb.timeline.bnd (w.loc + 1)) - 1) := by
  obtain ⟨xs, hx⟩ := hv.listedAs
  obtain ⟨i0, i1, _⟩ := hx.found hv h
  obtain ⟨w', b1, b2, _, _, b5, b6, _⟩ := Workshift.exists_of_range hv none i0 i1
  unfold Workshift.startTime at b5 ⊢
  unfold Workshift.endTime at b6 ⊢
  rw [b2] at b5 b6
  exact ⟨i0, i1, b5, b6⟩

/-- **C112**, amendments.  Timeboards which differ in amendments only, agree wherever the amendments are the same. -/
theorem C112_amendments {a : Args L} {more : List (Time × L)} {heap heap1 heap2 : Heap L} (h : Timeboard.new a heap = .ok (tb, heap1))
    (h' : Timeboard.new { a with amendments := more } heap = .ok (tb', heap2)) {w1 w2 : Workshift L} (hse : s ≤ e) (hw1 : tb.getWorkshift s = .ok w1)
    (hs1 : w1.startTime tb = .ok s) (hw2 : tb.getWorkshift e = .ok w2) (he2 : w2.endTime tb = .ok e)
    (hsame : ∀ t, s ≤ t → t ≤ e → ∀ l, (t, l) ∈ a.amendments ↔ (t, l) ∈ more) : tb.AgreesOn tb' s e := by
  have hv : tb.Valid := (Timeboard.Reachable.new h).valid
  have hv' : tb'.Valid := (Timeboard.Reachable.new h').valid
  have wf := hv.wf
  obtain ⟨tb0, n0, _, _, l0, key⟩ := C12_amendments_exact h
  obtain ⟨tb1, n1, _, _, l1, key'⟩ := C12_amendments_exact h'
  have e01 : Args.plain { a with amendments := more } = a.plain := rfl
  rw [e01, n0] at n1
  cases n1
  obtain ⟨xs, hx⟩ := hv.listedAs
  obtain ⟨i0, i1, _, i2, i3, y1, _, _, _, _⟩ := hx.found hv hw1
  obtain ⟨j0, j1, _, j2, j3, y2, _, _, _, _⟩ := hx.found hv hw2
  have starts : ∀ {b : Timeboard L} (hb : b.Valid) {k : Int} (h0 : 0 ≤ k) (h1 : k < b.timeline.len) {w : Workshift L}, Workshift.new b k = .ok w →
      w.startTime b = .ok (b.timeline.frame.unitStart (b.timeline.bnd k)) ∧ w.endTime b = .ok (b.timeline.frame.unitStart (b.timeline.bnd (k + 1)) - 1) := by
    intro b hb k h0 h1 w hw
    obtain ⟨w', c1, c2, _, _, c5, c6, _, _⟩ := Workshift.exists_of_range hb none h0 h1
    rw [hw] at c1; cases c1
    exact ⟨c5, c6⟩
  refine ⟨hse, ?_⟩
  intro t t1 t2
  have us : tb.timeline.frame.unitStart (tb.timeline.bnd w1.loc) = s := by
    obtain ⟨_, _, b1⟩ := Workshift.getWorkshift_times hv hw1
    rw [b1.1] at hs1
    exact Except.ok.inj hs1
  have ue : tb.timeline.frame.unitStart (tb.timeline.bnd (w2.loc + 1)) - 1 = e := by
    obtain ⟨_, _, b1⟩ := Workshift.getWorkshift_times hv hw2
    rw [b1.2] at he2
    exact Except.ok.inj he2
  have w1s := hv.at_within (hv.at_iff.2 ((wf.wsPosition_ok_iff s w1.loc).2 ⟨i0, i1, i2, i3⟩))
  have w2e := hv.at_within (hv.at_iff.2 ((wf.wsPosition_ok_iff e w2.loc).2 ⟨j0, j1, j2, j3⟩))
  obtain ⟨k, hk⟩ := hv.at_exists (show tb.Within t from ⟨Int.le_trans w1s.1 t1, Int.le_trans t2 w2e.2⟩)
  obtain ⟨k0, k1, k2, k3⟩ := (wf.wsPosition_ok_iff t k).1 (hv.at_iff.1 hk)
  -- the workshift is in the time considered
  have hlo : s ≤ tb.timeline.frame.unitStart (tb.timeline.bnd k) := by
    rcases Int.lt_or_le k w1.loc with hlt | hle
    · have := Frame.unitStart_le_iff (f := tb.timeline.frame).2 (wf.bnd_le_bnd (j := k + 1) (k := w1.loc) (by omega) (by omega) (by omega))
      omega
    · have := Frame.unitStart_le_iff (f := tb.timeline.frame).2 (wf.bnd_le_bnd (j := w1.loc) (k := k) (by omega) (by omega) (by omega))
      omega
  have hhi : tb.timeline.frame.unitStart (tb.timeline.bnd (k + 1)) - 1 ≤ e := by
    rcases Int.lt_or_le w2.loc k with hlt | hle
    · have := Frame.unitStart_le_iff (f := tb.timeline.frame).2 (wf.bnd_le_bnd (j := w2.loc + 1) (k := k) (by omega) (by omega) (by omega))
      omega
    · have := Frame.unitStart_le_iff (f := tb.timeline.frame).2 (wf.bnd_le_bnd (j := k + 1) (k := w2.loc + 1) (by omega) (by omega) (by omega))
      omega
  obtain ⟨w, w0, g1, g2, g3, g4, g5, g6, g7, g8⟩ := key k k0 k1
  obtain ⟨w', w0', g1', g2', g3', g4', g5', g6', g7', g8'⟩ := key' k k0 (by omega)
  rw [g2] at g2'
  cases g2'
  obtain ⟨c1, c2⟩ := starts hv k0 k1 g1
  have c1' : w'.startTime tb' = .ok (tb.timeline.frame.unitStart (tb.timeline.bnd k)) := by rw [g3', ← g3, c1]
  have c2' : w'.endTime tb' = .ok (tb.timeline.frame.unitStart (tb.timeline.bnd (k + 1)) - 1) := by rw [g4', ← g4, c2]
  have at_iff : ∀ u, tb'.At u k ↔ tb.At u k := by
    intro u
    constructor
    · rintro ⟨_, _, v, x, y, q1, q2, q3, q4, q5⟩
      rw [g1'] at q1; cases q1
      rw [c1'] at q2; rw [c2'] at q3
      cases q2; cases q3
      exact ⟨k0, k1, w, _, _, g1, c1, c2, q4, q5⟩
    · rintro ⟨_, _, v, x, y, q1, q2, q3, q4, q5⟩
      rw [g1] at q1; cases q1
      rw [c1] at q2; rw [c2] at q3
      cases q2; cases q3
      exact ⟨k0, by omega, w', _, _, g1', c1', c2', q4, q5⟩
  have inside : ∀ u, tb.At u k → s ≤ u ∧ u ≤ e := by
    rintro u ⟨_, _, v, x, y, q1, q2, q3, q4, q5⟩
    rw [g1] at q1; cases q1
    rw [c1] at q2; rw [c2] at q3
    cases q2; cases q3
    omega
  have hlab : w.label = w'.label := by
    by_cases hex : ∃ u l, (u, l) ∈ a.amendments ∧ tb.At u k
    · obtain ⟨u, l, m1, m2⟩ := hex
      obtain ⟨u1, u2⟩ := inside u m2
      rw [g7 u l m1 m2, g7' u l ((hsame u u1 u2 l).1 m1) ((at_iff u).2 m2)]
    · rw [g8 (fun u l m1 m2 => hex ⟨u, l, m1, m2⟩), g8' (fun u l m1 m2 => by
        have m2 := (at_iff u).1 m2
        obtain ⟨u1, u2⟩ := inside u m2
        exact hex ⟨u, l, (hsame u u1 u2 l).2 m1, m2⟩)]
  have hd : ∃ r d, w.toTimestamp tb = .ok r ∧ w.duration tb = .ok d := by
    obtain ⟨w9, d1, _, _, _, _, _, d7, d8⟩ := Workshift.exists_of_range hv none k0 k1
    rw [g1] at d1; cases d1
    exact ⟨_, _, d7, d8⟩
  obtain ⟨r, d, r1, r2⟩ := hd
  refine ⟨w, w', { start := tb.timeline.frame.unitStart (tb.timeline.bnd k), stop := tb.timeline.frame.unitStart (tb.timeline.bnd (k + 1)) - 1, ref := r, duration := d, label := w.label }, by rw [hv.getWorkshift_at hk]; exact g1,
    by rw [hv'.getWorkshift_at ((at_iff t).2 hk)]; exact g1', ?_, ?_, hlo, hhi⟩
  · unfold Workshift.view
    rw [c1, c2, r1, r2]
  · unfold Workshift.view
    rw [c1', c2', g5', ← g5, r1, g6', ← g6, r2, hlab]

/-- What is seen of a workshift found at a point in time. -/
theorem Workshift.view_of {w : Workshift L} {t x y d : Time} (hv : tb.Valid) (h : tb.getWorkshift t = .ok w) (h1 : w.startTime tb = .ok x) (h2 : w.endTime tb = .ok y)
    (h3 : w.duration tb = .ok d) : w.view tb = some { start := x, stop := y, ref := if tb.timeline.refEnd then y else x, duration := d, label := w.label } := by
  obtain ⟨i0, i1, c1, c2⟩ := Workshift.getWorkshift_times hv h
  obtain ⟨w', _, b2, _, _, _, _, b7, _⟩ := Workshift.exists_of_range hv none i0 i1
  have hr : w.toTimestamp tb = .ok (tb.timeline.refTime w.loc) := by
    unfold Workshift.toTimestamp at b7 ⊢
    rw [b2] at b7
    exact b7
  rw [h1] at c1
  rw [h2] at c2
  cases c1
  cases c2
  unfold Workshift.view
  rw [h1, h2, h3, hr]
  rfl

/-- **C112**, ready-made calendars, also different ones: they agree on a stretch of days if all these days have the same labels. -/
theorem C112_calendars {c c' : Calendar} (hc : Preconfigured c) (hc' : Preconfigured c') {cs ce cs' ce' : Option Time} {dna oc dna' oc' : Bool}
    {custom custom' : Option (List (Time × Int))} {heap heap' : Heap Int} {tb tb' : Timeboard Int} (h : c.new cs ce dna oc custom heap = .ok tb)
    (h' : c'.new cs' ce' dna' oc' custom' heap' = .ok tb') {d1 d2 : Int} (hd : d1 ≤ d2)
    (hin : tb.startTime ≤ d1 * nsDay ∧ (d2 + 1) * nsDay - 1 ≤ tb.endTime) (hin' : tb'.startTime ≤ d1 * nsDay ∧ (d2 + 1) * nsDay - 1 ≤ tb'.endTime)
    (hl : ∀ t, d1 ≤ dayOf t → dayOf t ≤ d2 → labelAt (.ok tb) t = labelAt (.ok tb') t) : tb.AgreesOn tb' (d1 * nsDay) ((d2 + 1) * nsDay - 1) := by
  have hv := (hc.facts h).1.valid
  have hv' := (hc'.facts h').1.valid
  have hre : ∀ {c : Calendar} (hc : Preconfigured c) {cs ce : Option Time} {dna oc : Bool} {custom : Option (List (Time × Int))} {heap : Heap Int} {tb : Timeboard Int},
      c.new cs ce dna oc custom heap = .ok tb → tb.timeline.refEnd = false := by
    intro c hc cs ce dna oc custom heap tb h
    obtain ⟨d, heap', _, _, _, _, hn⟩ := hc.board h
    exact Timeboard.refEnd_eq hn
  refine ⟨by unfold nsDay; omega, ?_⟩
  intro t t1 t2
  have hdt : d1 ≤ dayOf t ∧ dayOf t ≤ d2 := by unfold dayOf; unfold nsDay at *; omega
  obtain ⟨w, w1, w2, w3, w4⟩ := (C52_covers hc h).2.2 t (by omega) (by omega)
  obtain ⟨w', w1', w2', w3', w4'⟩ := (C52_covers hc' h').2.2 t (by omega) (by omega)
  have e := hl t hdt.1 hdt.2
  rw [labelAt_ok w1, labelAt_ok w1'] at e
  have e : w.label = w'.label := Except.ok.inj e
  refine ⟨w, w', _, w1, w1', Workshift.view_of hv w1 w2 w3 w4, ?_, ?_, ?_⟩
  · rw [Workshift.view_of hv' w1' w2' w3' w4', hre hc h, hre hc' h', e]
  · show d1 * nsDay ≤ dayOf t * nsDay
    unfold nsDay; omega
  · show (dayOf t + 1) * nsDay - 1 ≤ (d2 + 1) * nsDay - 1
    unfold nsDay; omega

/-- **C112**, the British and the Russian calendars of different years agree on the days which they have in common. -/
theorem C112_sub_ranges {c : Calendar} (hc : (∃ country dno lw, c = ukCalendar country dno lw) ∨ (∃ w s, c = ruCalendar w s))
    {cs ce cs' ce' : Option Time} {custom : Option (List (Time × Int))} {heap heap' : Heap Int} {tb tb' : Timeboard Int}
    (h : c.new cs ce false false custom heap = .ok tb) (h' : c.new cs' ce' false false custom heap' = .ok tb') {d1 d2 : Int} (hd : d1 ≤ d2)
    (hin : tb.startTime ≤ d1 * nsDay ∧ (d2 + 1) * nsDay - 1 ≤ tb.endTime) (hin' : tb'.startTime ≤ d1 * nsDay ∧ (d2 + 1) * nsDay - 1 ≤ tb'.endTime) :
    tb.AgreesOn tb' (d1 * nsDay) ((d2 + 1) * nsDay - 1) := by
  have hp : Preconfigured c := by
    rcases hc with ⟨country, dno, lw, rfl⟩ | ⟨w, s, rfl⟩
    · exact .uk _ _ _
    · exact .ru _ _
  apply C112_calendars hp hp h h' hd hin hin'
  intro t t1 t2
  have h1 : d1 * nsDay ≤ t ∧ t ≤ (d2 + 1) * nsDay - 1 := by unfold dayOf at t1 t2; unfold nsDay at *; omega
  obtain ⟨l, l1, l2⟩ := C55_uk_ru_same_label hc h h' t (by omega) (by omega) (by omega) (by omega)
  rw [l1, l2]

/-- **C112**, one pattern for each calendar period: timeboards with the same layout agree on the units which they have in common. -/
theorem C112_pattern {a : Args L} {start stop : Time} {heap heap' heap1 heap1' : Heap L} {each : Freq} {ys : List L}
    (ha : a.amendments = []) (hlay : a.layout = .organizer (.marker ⟨each, []⟩) [.pattern (.list ys)]) (hy : ys ≠ []) (hc : checkGroupbyFreq a.freq each = true)
    (hbu : a.freq.mult = 1) (hea : each.mult = 1) (h : Timeboard.new a heap = .ok (tb, heap1)) (h' : Timeboard.new { a with start := start, stop := stop } heap' = .ok (tb', heap1'))
    (hse : s ≤ e) (hs : s = (Period.ofTime a.freq s).startTime) (he : e = (Period.ofTime a.freq e).endTime)
    (hin : tb.startTime ≤ s ∧ e ≤ tb.endTime) (hin' : tb'.startTime ≤ s ∧ e ≤ tb'.endTime) : tb.AgreesOn tb' s e := by
  have facts : ∀ (a : Args L) (heap heap1 : Heap L) (tb : Timeboard L), a.amendments = [] → a.layout = .organizer (.marker ⟨each, []⟩) [.pattern (.list ys)] →
      checkGroupbyFreq a.freq each = true → a.freq.mult = 1 → Timeboard.new a heap = .ok (tb, heap1) → ∀ t, tb.startTime ≤ t → t ≤ tb.endTime →
      ∃ w, tb.getWorkshift t = .ok w ∧ w.view tb = some { start := (Period.ofTime a.freq t).startTime, stop := (Period.ofTime a.freq t).endTime, ref := if a.refEnd then (Period.ofTime a.freq t).endTime else (Period.ofTime a.freq t).startTime, duration := 1, label := w.label } ∧
        cyclic ys ((Period.ofTime a.freq t).ord - (Period.ofTime a.freq (Period.ofTime each t).startTime).ord).toNat = some w.label := by
    intro a heap heap1 tb ha hlay hc hbu h t t1 t2
    have hv : tb.Valid := (Timeboard.Reachable.new h).valid
    obtain ⟨org, fr, tl0, tl, g1, g2, g3, g4, g5, g6⟩ := Timeboard.new_ok_iff.1 h
    obtain ⟨tb2, n2, p2⟩ := C07_calendar_pattern (heap := heap) ha hlay hy g2 g3 hc hbu hea
    rw [h] at n2
    cases n2
    obtain ⟨w, w1, w2, w3, w4⟩ := p2 t none t1 t2
    have hfr : tb.timeline.frame.freq = a.freq := by
      have := (Timeline.amend_frame g5).1
      rw [g6]
      show tl.frame.freq = _
      rw [this, (Timeline.new_wf (Frame.new_valid g3) g4).2.1, (Frame.new_ok_iff.1 g3).2]
    have hend : w.endTime tb = .ok (Period.ofTime a.freq t).endTime := by
      obtain ⟨i0, i1, c1, c2⟩ := Workshift.getWorkshift_times hv w1
      rw [w2] at c1
      have c1 := Except.ok.inj c1
      obtain ⟨w', _, b2, _, _, _, _, _, b8⟩ := Workshift.exists_of_range hv none i0 i1
      unfold Workshift.duration at b8 w3
      rw [b2, w3] at b8
      have b8 := Except.ok.inj b8
      rw [c2]
      unfold Frame.unitStart Period.startTime at c1
      unfold Frame.unitStart Period.endTime
      rw [hfr] at c1 ⊢
      have l1 := (a.freq.base.startOf_le_startOf (Period.ofTime a.freq t).ord (tb.timeline.frame.ord (tb.timeline.bnd w.loc))).1 (by
        rw [← c1]; exact Int.le_refl _)
      have l2 := (a.freq.base.startOf_le_startOf (tb.timeline.frame.ord (tb.timeline.bnd w.loc)) (Period.ofTime a.freq t).ord).1 (by
        rw [← c1]; exact Int.le_refl _)
      have l3 : tb.timeline.frame.ord (tb.timeline.bnd (w.loc + 1)) = (Period.ofTime a.freq t).ord + (Period.ofTime a.freq t).freq.mult := by
        unfold Frame.ord at l1 l2 ⊢
        rw [hfr, hbu] at l1 l2 ⊢
        show _ = _ + ((a.freq.mult : Nat) : Int)
        rw [hbu]
        omega
      rw [l3]
      rfl
    refine ⟨w, w1, ?_, w4⟩
    rw [Workshift.view_of hv w1 w2 hend w3, Timeboard.refEnd_eq h]
  refine ⟨hse, ?_⟩
  intro t t1 t2
  obtain ⟨w, w1, w2, w3⟩ := facts a heap heap1 tb ha hlay hc hbu h t (by omega) (by omega)
  obtain ⟨w', w1', w2', w3'⟩ := facts { a with start := start, stop := stop } heap' heap1' tb' ha hlay hc hbu h' t (by omega) (by omega)
  have hl : w.label = w'.label := by
    rw [w3] at w3'
    exact Option.some.inj w3'
  refine ⟨w, w', _, w1, w1', w2, by rw [w2', ← hl], ?_, ?_⟩
  · rw [hs]
    exact (a.freq.base.startOf_le_startOf _ _).2 ((a.freq.base.ordOf_mono) t1)
  · rw [he]
    have := (a.freq.base.startOf_le_startOf ((Period.ofTime a.freq t).ord + a.freq.mult) ((Period.ofTime a.freq e).ord + a.freq.mult)).2 (by
      have : (Period.ofTime a.freq t).ord ≤ (Period.ofTime a.freq e).ord := a.freq.base.ordOf_mono t2
      omega)
    show a.freq.base.startOf _ - 1 ≤ a.freq.base.startOf _ - 1
    exact Int.sub_le_sub_right this 1

/-! ### Examples -/

/-- The week of the examples, without amendments. -/
def bareArgs : Args Int := { weekArgs with amendments := [] }
def bareBoard : Timeboard Int := board bareArgs (by decide +kernel)
/-- The same for another range. -/
def longBoard : Timeboard Int := board { bareArgs with start := date 2016 12 1, stop := date 2017 3 31 } (by decide +kernel)

/-- They agree on January. -/
theorem plain_long_agree : bareBoard.AgreesOn longBoard (date 2017 1 1) (date 2017 2 1 - 1) := by
  obtain ⟨_, h⟩ := board_ok bareArgs (by decide +kernel)
  obtain ⟨_, h'⟩ := board_ok { bareArgs with start := date 2016 12 1, stop := date 2017 3 31 } (by decide +kernel)
  exact C112_pattern (each := fW) (ys := [8, 8, 8, 8, 8, 0, 0]) rfl rfl (by decide) (by decide +kernel) (by decide +kernel) (by decide +kernel) h h' (by decide +kernel)
    (by decide +kernel) (by decide +kernel) (by decide +kernel) (by decide +kernel)

/-- The amendments of `week` are before 9 January. -/
theorem plain_week_agree : week.AgreesOn bareBoard (date 2017 1 9) (date 2017 2 1 - 1) := by
  obtain ⟨_, h⟩ := board_ok weekArgs (by decide +kernel)
  obtain ⟨_, h'⟩ := board_ok bareArgs (by decide +kernel)
  have e1 : ∃ w, (board weekArgs (by decide +kernel)).getWorkshift (date 2017 1 9) = .ok w ∧ w.startTime (board weekArgs (by decide +kernel)) = .ok (date 2017 1 9) :=
    ⟨{ loc := 8, label := 8, schedule := week.defaultSchedule }, rfl, by decide +kernel⟩
  have e2 : ∃ w, (board weekArgs (by decide +kernel)).getWorkshift (date 2017 2 1 - 1) = .ok w ∧ w.endTime (board weekArgs (by decide +kernel)) = .ok (date 2017 2 1 - 1) :=
    ⟨{ loc := 30, label := 8, schedule := week.defaultSchedule }, rfl, by decide +kernel⟩
  obtain ⟨w1, a1, a2⟩ := e1
  obtain ⟨w2, b1, b2⟩ := e2
  refine C112_amendments h h' (by decide +kernel) a1 a2 b1 b2 ?_
  intro t t1 t2 l
  simp only [weekArgs, List.not_mem_nil, iff_false, List.mem_cons, Prod.mk.injEq, or_false, not_or]
  have d1 : date 2017 1 2 < date 2017 1 9 := by decide +kernel
  have d2 : date 2017 1 8 + 10 * nsHour < date 2017 1 9 := by decide +kernel
  have d3 : date 2017 2 1 - 1 < date 2018 1 1 := by decide +kernel
  omega

/- The third week of January: the same days, working days and hours, at different positions. -/
example : let ask := fun (tb : Timeboard Int) => (tb.getInterval (some (.point (date 2017 1 18))) none (some fW)).bind (fun v =>
      (v.count tb .on).bind (fun n => (v.totalDuration tb .any).bind (fun d => (v.startTime tb).bind (fun t => (v.endTime tb).map (fun u => (n, d, t, u))))))
    ask bareBoard = .ok (5, 7, some (date 2017 1 16), some (date 2017 1 23 - 1)) ∧ ask longBoard = ask bareBoard ∧ ask week = ask bareBoard ∧
    (bareBoard.getInterval (some (.point (date 2017 1 18))) none (some fW)).map (fun v => v.lo) = .ok 15 ∧
    (longBoard.getInterval (some (.point (date 2017 1 18))) none (some fW)).map (fun v => v.lo) = .ok 46 := by decide +kernel

example : AskedWithin (date 2017 1 1) (date 2017 2 1 - 1) (some (.point (date 2017 1 18))) none (some fW) ∧
    AskedWithin (date 2017 1 1) (date 2017 2 1 - 1) (some (.pair (some (date 2017 1 3)) (some (date 2017 1 2)))) none none ∧
    ¬ AskedWithin (date 2017 1 1) (date 2017 2 1 - 1) (some (.point (date 2017 1 1))) none (some fW) := by
  unfold AskedWithin; decide +kernel

/- The week of 1 January begins in 2016: its clipped part, or an error, on the one, and the whole week on the other. -/
example : (bareBoard.getInterval (some (.point (date 2017 1 1))) none (some fW)).map (fun v => v.len) = .ok 1 ∧
    (longBoard.getInterval (some (.point (date 2017 1 1))) none (some fW)).map (fun v => v.len) = .ok 7 := by decide +kernel

def rolledTo (tb : Timeboard Int) (t : Time) (n : Int) : Except Err (Option (Shift Int)) :=
  (tb.getWorkshift t).bind (fun w => (w.rollforward tb n .on).map (fun w' => w'.view tb))
def rolledBack (tb : Timeboard Int) (t : Time) (n : Int) : Except Err (Option (Shift Int)) :=
  (tb.getWorkshift t).bind (fun w => (w.rollback tb n .on).map (fun w' => w'.view tb))

/- Rolling over five working days; out of the time on which they agree the answers differ. -/
#guard rolledTo bareBoard (date 2017 1 14) 5 = .ok (some { start := date 2017 1 23, stop := date 2017 1 24 - 1, ref := date 2017 1 23, duration := 1, label := 8 })
#guard rolledTo longBoard (date 2017 1 14) 5 = .ok (some { start := date 2017 1 23, stop := date 2017 1 24 - 1, ref := date 2017 1 23, duration := 1, label := 8 })
#guard rolledBack bareBoard (date 2017 1 14) 5 = .ok (some { start := date 2017 1 6, stop := date 2017 1 7 - 1, ref := date 2017 1 6, duration := 1, label := 8 })
#guard rolledBack longBoard (date 2017 1 14) 5 = .ok (some { start := date 2017 1 6, stop := date 2017 1 7 - 1, ref := date 2017 1 6, duration := 1, label := 8 })
#guard rolledTo bareBoard (date 2017 1 31) 1 = .error .outOfBounds
#guard rolledTo longBoard (date 2017 1 31) 1 = .ok (some { start := date 2017 2 1, stop := date 2017 2 2 - 1, ref := date 2017 2 1, duration := 1, label := 8 })

/- Portions and numbers of periods. -/
#guard let ask := fun (tb : Timeboard Int) => (tb.getInterval (some (.pair (some (date 2017 1 4)) (some (date 2017 1 20))))).bind (fun v =>
    (tb.getInterval (some (.pair (some (date 2017 1 12)) (some (date 2017 1 31))))).bind (fun y =>
      (v.whatPortionOf tb y .on).bind (fun p => (v.countPeriods tb fW .on).map (fun q => (p, q)))))
  ask bareBoard = .ok ((7 : Rat) / 14, 1 + 1 + (3 : Rat) / 5) && ask longBoard = ask bareBoard

/- The British calendar of 2017 and that of February to June 2017: both cover April, with 18 working days. -/
example : let april := fun (r : Except Err (Timeboard Int)) => r.bind (fun tb => (tb.getInterval (some (.point (date 2017 4 1))) none (some fM)).bind (fun v =>
      (v.count tb .on).map (fun n => (n, decide (tb.startTime ≤ dayNum 2017 4 1 * nsDay), decide ((dayNum 2017 4 30 + 1) * nsDay - 1 ≤ tb.endTime)))))
    april ((ukCalendar).new (some (date 2017 1 1)) (some (date 2017 12 31))) = .ok (18, true, true) ∧
    april ((ukCalendar).new (some (date 2017 2 1)) (some (date 2017 6 30))) = .ok (18, true, true) := by decide +kernel

end TB
