import Verif.Props.Additive
import Verif.Props.CountPeriods
import Verif.Props.Roll
/-! Properties C92, C93: wider intervals, richer schedules, later starts, more steps. -/
namespace TB
open TB.Ex
variable {L : Type}

/-! ### lists -/

theorem sublist_of_pairwise_lt {P Q : List Int} (hP : P.Pairwise (· < ·)) (hQ : Q.Pairwise (· < ·)) (h : ∀ x ∈ P, x ∈ Q) : P.Sublist Q := by
  have e : P = Q.filter (fun x => decide (x ∈ P)) := by
    apply eq_of_pairwise_lt hP (hQ.filter _)
    intro a
    rw [List.mem_filter, decide_eq_true_eq]
    exact ⟨fun ha => ⟨h a ha, ha⟩, fun ha => ha.2⟩
  rw [e]
  exact List.filter_sublist

theorem sum_int_sublist {P Q : List Int} (f : Int → Int) (h : P.Sublist Q) (h0 : ∀ x ∈ Q, 0 ≤ f x) : (P.map f).sum ≤ (Q.map f).sum := by
  induction h with
  | slnil => exact Int.le_refl _
  | cons a _ ih =>
    have := ih (fun x hx => h0 x (by simp [hx]))
    have := h0 a (by simp)
    rw [List.map_cons, List.sum_cons]; omega
  | cons_cons a _ ih =>
    have := ih (fun x hx => h0 x (by simp [hx]))
    rw [List.map_cons, List.sum_cons, List.map_cons, List.sum_cons]; omega

theorem sum_rat_sublist {P Q : List Int} (f : Int → Rat) (h : P.Sublist Q) (h0 : ∀ x ∈ Q, 0 ≤ f x) : (P.map f).sum ≤ (Q.map f).sum := by
  induction h with
  | slnil => exact Rat.le_refl
  | cons a _ ih =>
    have h1 := ih (fun x hx => h0 x (by simp [hx]))
    have h2 := h0 a (by simp)
    rw [List.map_cons, List.sum_cons]; grind
  | cons_cons a _ ih =>
    have h1 := ih (fun x hx => h0 x (by simp [hx]))
    rw [List.map_cons, List.sum_cons, List.map_cons, List.sum_cons]; grind

theorem sum_mapM_sublist {F G : Int → Except Err Rat} {P Q : List Int} (h : P.Sublist Q) (h0 : ∀ x ∈ Q, ∀ y, G x = .ok y → 0 ≤ y)
    (h1 : ∀ x ∈ P, ∀ y, G x = .ok y → ∃ z, z ≤ y ∧ F x = .ok z) (z : Rat) (hz : (Q.mapM G).map List.sum = .ok z) :
    ∃ x, x ≤ z ∧ (P.mapM F).map List.sum = .ok x := by
  induction h generalizing z with
  | slnil => exact ⟨0, by cases hz; exact Rat.le_refl, rfl⟩
  | @cons P Q a _ ih =>
    rw [List.mapM_cons] at hz
    cases ha : G a with
    | error e => rw [ha] at hz; cases hz
    | ok y =>
      rw [ha] at hz
      cases hQ : Q.mapM G with
      | error e => rw [hQ] at hz; cases hz
      | ok ys =>
        rw [hQ] at hz
        cases hz
        obtain ⟨x, hx, hP⟩ := ih (fun x hx => h0 x (by simp [hx])) h1 ys.sum (by rw [hQ]; rfl)
        refine ⟨x, ?_, hP⟩
        have := h0 a (by simp) y ha
        rw [List.sum_cons]; grind
  | @cons_cons P Q a _ ih =>
    rw [List.mapM_cons] at hz
    cases ha : G a with
    | error e => rw [ha] at hz; cases hz
    | ok y =>
      rw [ha] at hz
      cases hQ : Q.mapM G with
      | error e => rw [hQ] at hz; cases hz
      | ok ys =>
        rw [hQ] at hz
        cases hz
        obtain ⟨x, hx, hP⟩ := ih (fun x hx => h0 x (by simp [hx])) (fun x hx => h1 x (by simp [hx])) ys.sum (by rw [hQ]; rfl)
        obtain ⟨b, hb, hF⟩ := h1 a (by simp) y ha
        rw [List.mapM_cons, hF]
        cases hP' : P.mapM F with
        | error e => rw [hP'] at hP; cases hP
        | ok xs =>
          rw [hP'] at hP
          cases hP
          refine ⟨b + xs.sum, ?_, ?_⟩
          · rw [List.sum_cons]; grind
          · show Except.ok ((b :: xs).sum) = _
            rw [List.sum_cons]

theorem inv_nat_nonneg (n : Nat) : 0 ≤ (((n : Int) : Rat))⁻¹ := by
  by_cases hz : n = 0
  · subst hz; decide +kernel
  · have := ratio_nonneg (n := 1) (d := (n : Int)) (by omega) (by omega)
    rwa [Rat.div_def, Rat.intCast_one, Rat.one_mul] at this

/-! ### C92 -/

/-- All workshifts of `u` are in `v`. -/
def Interval.PartOf (u v : Interval L) (tb : Timeboard L) : Prop := ∀ k, u.Contains tb k → v.Contains tb k

/-- Whatever has the duty under `s` has it under `s'`. -/
def Timeboard.Covers (tb : Timeboard L) (d : Duty) (s s' : Schedule L) : Prop := ∀ k, tb.DutyAt s d k → tb.DutyAt s' d k

theorem positions_sublist {tb : Timeboard L} (hvd : tb.Valid) {u v : Interval L} (fu : u.Fine tb) (fv : v.Fine tb) (huv : u.PartOf v tb)
    {s s' : Schedule L} {d : Duty} (hss : tb.Covers d s s') :
    (tb.dutyPositions s.selector d u.lo u.hi).Sublist (tb.dutyPositions s'.selector d v.lo v.hi) := by
  apply sublist_of_pairwise_lt (tb.pairwise_dutyPositions _ _ _ _) (tb.pairwise_dutyPositions _ _ _ _)
  intro k hk
  have h1 := (hvd.mem_dutyPositions_iff fu.nonneg.1 fu.lt.2 k).1 hk
  have h2 := (fv.contains_iff hvd k).1 (huv k ((fu.contains_iff hvd k).2 ⟨h1.1, h1.2.1⟩))
  exact (hvd.mem_dutyPositions_iff fv.nonneg.1 fv.lt.2 k).2 ⟨h2.1, h2.2, hss k h1.2.2⟩

theorem ranges_sublist {tb : Timeboard L} (hvd : tb.Valid) {u v : Interval L} (fu : u.Fine tb) (fv : v.Fine tb) (huv : u.PartOf v tb) :
    (intRange u.lo (u.hi + 1)).Sublist (intRange v.lo (v.hi + 1)) := by
  apply sublist_of_pairwise_lt (pairwise_intRange _ _) (pairwise_intRange _ _)
  intro k hk
  rw [mem_intRange] at hk ⊢
  have h2 := (fv.contains_iff hvd k).1 (huv k ((fu.contains_iff hvd k).2 ⟨by omega, by omega⟩))
  omega

/-- **C92.** If all workshifts of `u` are in `v` and everything on duty (off duty) under the schedule used with `u` is so under the
schedule used with `v`, then the length, the number of workshifts, the total duration and the worktime of `u` do not exceed those of
`v`; for worktime taken from labels the labels of `v` must not be negative numbers.  The worktime of `u` is defined whenever that
of `v` is. -/
theorem C92_wider {tb : Timeboard L} (h : tb.Reachable) {u v : Interval L} (hu : tb.HasInterval u) (hv : tb.HasInterval v)
    (huv : u.PartOf v tb) {s s' : Option (Schedule L)} (hs : tb.OwnsOpt s) (hs' : tb.OwnsOpt s') {d : Duty} (hd : d = .on ∨ d = .off ∨ d = .any)
    (hss : tb.Covers d (s.getD u.schedule) (s'.getD v.schedule)) (num : L → Option Rat)
    (hnum : tb.worktimeSource = "labels" → ∀ k w q, v.Contains tb k → Workshift.new tb k = .ok w → num w.label = some q → 0 ≤ q) :
    u.len ≤ v.len ∧
    (∃ x y, u.count tb d s = .ok x ∧ v.count tb d s' = .ok y ∧ x ≤ y) ∧
    (∃ x y, u.totalDuration tb d s = .ok x ∧ v.totalDuration tb d s' = .ok y ∧ x ≤ y) ∧
    (∀ y, v.worktime tb num d s' = .ok y → ∃ x, u.worktime tb num d s = .ok x ∧ x ≤ y) := by
  have hvd := h.valid
  have fu := hu.fine hvd
  have fv := hv.fine hvd
  have hpos := positions_sublist hvd fu fv huv hss
  refine ⟨?_, ⟨_, _, fu.count_eq hvd hs hd, fv.count_eq hvd hs' hd, ?_⟩,
    ⟨_, _, fu.totalDuration_eq hvd hs hd, fv.totalDuration_eq hvd hs' hd, ?_⟩, ?_⟩
  · rw [fu.len_eq, fv.len_eq]
    have := (ranges_sublist hvd fu fv huv).length_le
    omega
  · have := hpos.length_le
    omega
  · apply sum_int_sublist _ hpos
    intro k hk
    obtain ⟨h1, h2, _⟩ := Timeboard.mem_dutyPositions.1 hk
    have := fv.nonneg
    have := fv.lt
    have := hvd.wf.bnd_le_bnd (j := k) (k := k + 1) (by omega) (by omega) (by omega)
    omega
  · intro y hy
    rw [worktime_by_positions h hv hs' num hd] at hy
    rw [worktime_by_positions h hu hs num hd]
    obtain ⟨x, hx1, hx2⟩ := sum_mapM_sublist (F := fun k =>
      (Workshift.new tb k (some (s.getD u.schedule))).bind (fun w => w.worktime tb num d (some (s.getD u.schedule))))
      (G := fun k => (Workshift.new tb k (some (s'.getD v.schedule))).bind (fun w => w.worktime tb num d (some (s'.getD v.schedule))))
      (ranges_sublist hvd fu fv huv)
      (by
        intro k hk y hy
        rw [mem_intRange] at hk
        have := fv.nonneg
        have := fv.lt
        obtain ⟨w, hw, hloc, _, hl, _⟩ := Workshift.exists_of_range hvd (some (s'.getD v.schedule)) (k := k) (by omega) (by omega)
        obtain ⟨w0, hw0, hloc0, _, hl0, _⟩ := Workshift.exists_of_range hvd none (k := k) (by omega) (by omega)
        rw [hw] at hy
        rw [← hloc] at hl
        simp only [Except.bind] at hy
        rw [Workshift.worktime_eq hl num _ hd] at hy
        split at hy
        · split at hy
          · rename_i hsrc
            cases hq : num w.label with
            | none => rw [hq] at hy; cases hy
            | some q =>
              rw [hq] at hy; cases hy
              rw [hloc, hl0] at hl
              simp only [Except.ok.injEq] at hl
              exact hnum hsrc k w0 _ ((fv.contains_iff hvd k).2 ⟨by omega, by omega⟩) hw0 (by rw [hl]; exact hq)
          · split at hy
            · unfold Workshift.duration at hy
              rw [hloc, hvd.wf.wsDuration_eq (by omega) (by omega)] at hy
              cases hy
              have := hvd.wf.bnd_le_bnd (j := k) (k := k + 1) (by omega) (by omega) (by omega)
              show (0 : Rat) ≤ ((tb.timeline.bnd (k + 1) - tb.timeline.bnd k : Int) : Rat)
              exact Rat.intCast_nonneg.2 (by omega)
            · cases hy
        · cases hy; exact Rat.le_refl)
      (by
        intro k hk y hy
        rw [mem_intRange] at hk
        have hk' := (fv.contains_iff hvd k).1 (huv k ((fu.contains_iff hvd k).2 ⟨by omega, by omega⟩))
        have := fv.nonneg
        have := fv.lt
        obtain ⟨w, hw, hloc, _, hl, _⟩ := Workshift.exists_of_range hvd (some (s'.getD v.schedule)) (k := k) (by omega) (by omega)
        obtain ⟨w1, hw1, hloc1, _, hl1, _⟩ := Workshift.exists_of_range hvd (some (s.getD u.schedule)) (k := k) (by omega) (by omega)
        obtain ⟨w0, hw0, hloc0, _, hl0, _⟩ := Workshift.exists_of_range hvd none (k := k) (by omega) (by omega)
        have lab1 : w1.label = w.label := by rw [hl] at hl1; exact (Except.ok.inj hl1).symm
        have lab0 : w0.label = w.label := by rw [hl] at hl0; exact (Except.ok.inj hl0).symm
        have hlw : tb.timeline.label w.loc = .ok w.label := by rw [hloc]; exact hl
        have hlw1 : tb.timeline.label w1.loc = .ok w1.label := by rw [hloc1]; exact hl1
        rw [hw] at hy
        rw [hw1]
        simp only [Except.bind] at hy ⊢
        rw [Workshift.worktime_eq hlw num _ hd] at hy
        rw [Workshift.worktime_eq hlw1 num _ hd, lab1]
        by_cases hm : dutyMatches d (s.getD u.schedule).selector w.label = true
        · have hm' : dutyMatches d (s'.getD v.schedule).selector w.label = true := by
            have h1 : tb.DutyAt (s.getD u.schedule) d k := hvd.dutyAt_iff.2 ⟨by omega, by omega, _, hl, hm⟩
            obtain ⟨_, _, l, q1, q2⟩ := hvd.dutyAt_iff.1 (hss k h1)
            rw [hl] at q1; cases q1; exact q2
          rw [if_pos hm'] at hy
          rw [if_pos hm]
          have ed : w1.duration tb = w.duration tb := by unfold Workshift.duration; rw [hloc, hloc1]
          rw [ed, hy]
          exact ⟨y, Rat.le_refl, rfl⟩
        · rw [if_neg hm]
          refine ⟨0, ?_, rfl⟩
          split at hy
          · split at hy
            · rename_i hsrc
              cases hq : num w.label with
              | none => rw [hq] at hy; cases hy
              | some q =>
                rw [hq] at hy; cases hy
                exact hnum hsrc k w0 _ ((fv.contains_iff hvd k).2 hk') hw0 (by rw [lab0]; exact hq)
            · split at hy
              · unfold Workshift.duration at hy
                rw [hloc, hvd.wf.wsDuration_eq (by omega) (by omega)] at hy
                cases hy
                have := hvd.wf.bnd_le_bnd (j := k) (k := k + 1) (by omega) (by omega) (by omega)
                show (0 : Rat) ≤ ((tb.timeline.bnd (k + 1) - tb.timeline.bnd k : Int) : Rat)
                exact Rat.intCast_nonneg.2 (by omega)
              · cases hy
          · cases hy; exact Rat.le_refl) y hy
    exact ⟨x, hx2, hx1⟩

/-- **C92**, portions and periods: if all workshifts of `u` are in `v` then, under the same schedule, the portion of any interval `o` found
in `u` does not exceed the one found in `v`, and the number of calendar periods in `u` does not exceed that in `v`; the former is
defined whenever the latter is. -/
theorem C92_ratios {tb : Timeboard L} (h : tb.Reachable) {u v : Interval L} (hu : tb.HasInterval u) (hv : tb.HasInterval v)
    (huv : u.PartOf v tb) {s : Option (Schedule L)} (hs : tb.OwnsOpt s) (he : s.getD u.schedule = s.getD v.schedule)
    {d : Duty} (hd : d = .on ∨ d = .off ∨ d = .any) :
    (∀ o, tb.HasInterval o → ∃ x y, u.whatPortionOf tb o d s = .ok x ∧ v.whatPortionOf tb o d s = .ok y ∧ x ≤ y) ∧
    (∀ freq y, v.countPeriods tb freq d s = .ok y → ∃ x, u.countPeriods tb freq d s = .ok x ∧ x ≤ y) := by
  have hvd := h.valid
  have fu := hu.fine hvd
  have fv := hv.fine hvd
  have hpos := positions_sublist hvd fu fv huv (s := s.getD u.schedule) (s' := s.getD v.schedule) (d := d) (by rw [he]; exact fun _ hk => hk)
  constructor
  · intro o ho
    obtain ⟨wv, ov, qv, a1, a2, a3, a4, _⟩ := C25_what_portion_of h hv ho hs hd
    obtain ⟨wu, ou, qu, b1, b2, b3, b4, _⟩ := C25_what_portion_of h hu ho hs hd
    rw [he, a2] at b2
    cases b2
    refine ⟨qu, qv, b3, a3, ?_⟩
    rw [a4, b4]
    have hle : (ov.filter (fun w => (wu.map (fun w => w.loc)).contains w.loc)).length ≤ (ov.filter (fun w => (wv.map (fun w => w.loc)).contains w.loc)).length := by
      rw [← List.countP_eq_length_filter, ← List.countP_eq_length_filter]
      apply List.countP_mono_left
      intro w _ hw
      simp only [List.contains_eq_mem, List.mem_map, decide_eq_true_eq] at hw ⊢
      obtain ⟨x, hx1, hx2⟩ := hw
      obtain ⟨ws, e, y, hy1, hy2⟩ := huv w.loc ⟨wu, b1, x, hx1, hx2⟩
      rw [a1] at e; cases e
      exact ⟨y, hy1, hy2⟩
    have hz : ∀ k N : Nat, (if k = 0 then (0 : Rat) else ((k : Int) : Rat) / ((N : Int) : Rat)) = ((k : Int) : Rat) * ((N : Int) : Rat)⁻¹ := by
      intro k N
      split
      · rename_i hk; subst hk; simp
      · rw [Rat.div_def]
    simp only [hz]
    apply Rat.mul_le_mul_of_nonneg_right
    · exact Rat.intCast_le_intCast.2 (by omega)
    · exact inv_nat_nonneg _
  · intro freq y hy
    obtain ⟨ey, hcase⟩ := fv.countPeriods_val h hs hd hy
    have hval : ∀ x, u.countPeriods tb freq d s = .ok x → x ≤ y := by
      intro x hx
      obtain ⟨ex, _⟩ := fu.countPeriods_val h hs hd hx
      rw [ex, ey, ← he]
      unfold Timeboard.weight
      rw [he] at hpos ⊢
      apply sum_rat_sublist _ hpos
      intro k _
      rw [Rat.div_def, Rat.one_mul]
      have := inv_nat_nonneg (tb.den (s.getD v.schedule) d freq (tb.per freq k))
      rwa [Rat.intCast_natCast] at this
    have hex : ∃ x, u.countPeriods tb freq d s = .ok x := by
      rcases fu.shape with pu | hh
      · have pv : v.Proper tb := by
          rcases fv.shape with pv | hv'
          · exact pv
          · exfalso
            have := (fv.contains_iff hvd u.lo).1 (huv u.lo ((fu.contains_iff hvd _).2 ⟨by omega, pu.lo_le_hi⟩))
            have := hv'.hi_lt_lo
            omega
        have hsup : supportedPeriod freq = true := by
          rcases hcase with hx | hx
          · rw [pv.not_void] at hx; cases hx
          · exact hx.1
        have au : u.startTime tb = .ok (some (tb.timeline.frame.unitStart (tb.timeline.bnd u.lo))) := by
          unfold Interval.startTime
          rw [pu.not_void, hvd.wf.wsStart_eq pu.lo_nonneg (by have := fu.lt; omega)]; rfl
        have bu : u.endTime tb = .ok (some (tb.timeline.frame.unitStart (tb.timeline.bnd (u.hi + 1)) - 1)) := by
          unfold Interval.endTime
          rw [pu.not_void, hvd.wf.wsEnd_eq (by have := fu.nonneg; omega) pu.hi_lt]; rfl
        have av : v.startTime tb = .ok (some (tb.timeline.frame.unitStart (tb.timeline.bnd v.lo))) := by
          unfold Interval.startTime
          rw [pv.not_void, hvd.wf.wsStart_eq pv.lo_nonneg (by have := fv.lt; omega)]; rfl
        have bv : v.endTime tb = .ok (some (tb.timeline.frame.unitStart (tb.timeline.bnd (v.hi + 1)) - 1)) := by
          unfold Interval.endTime
          rw [pv.not_void, hvd.wf.wsEnd_eq (by have := fv.nonneg; omega) pv.hi_lt]; rfl
        rcases pu.countPeriods_eq h (owns_getD_fine fu hs) hsup hd au bu with ⟨_, c2⟩ | ⟨_, _, c2⟩ | ⟨hne, o, e, o1, o2, o3, c2⟩
        · exact ⟨_, c2⟩
        · exact ⟨_, c2⟩
        · exfalso
          rcases pv.countPeriods_eq h (owns_getD_fine fv hs) hsup hd av bv with ⟨c1, _⟩ | ⟨_, c1, _⟩ | ⟨_, _, _, _, _, _, c3⟩
          · rw [c1] at hpos
            exact hne (List.sublist_nil.1 hpos)
          · have hl := (fv.contains_iff hvd u.lo).1 (huv u.lo ((fu.contains_iff hvd _).2 ⟨by omega, pu.lo_le_hi⟩))
            have hr := (fv.contains_iff hvd u.hi).1 (huv u.hi ((fu.contains_iff hvd _).2 ⟨pu.lo_le_hi, by omega⟩))
            have n1 := fu.nonneg
            have n2 := fv.nonneg
            have n3 := fu.lt
            have n4 := fv.lt
            have z1 : tb.timeline.frame.unitStart (tb.timeline.bnd v.lo) ≤ tb.timeline.frame.unitStart (tb.timeline.bnd u.lo) :=
              Frame.unitStart_le_iff.2 (hvd.wf.bnd_le_bnd (by omega) (by omega) (by omega))
            have z2 : tb.timeline.frame.unitStart (tb.timeline.bnd (u.hi + 1)) ≤ tb.timeline.frame.unitStart (tb.timeline.bnd (v.hi + 1)) :=
              Frame.unitStart_le_iff.2 (hvd.wf.bnd_le_bnd (by omega) (by omega) (by omega))
            have y1 := freq.base.ordOf_mono z1
            have y2 := freq.base.ordOf_mono (Int.sub_le_sub_right z2 1)
            exact o3.unfit (c1 o (by omega) (by omega))
          · rw [hy] at c3; cases c3
      · exact ⟨0, by unfold Interval.countPeriods; rw [hh.void]; rfl⟩
    obtain ⟨x, hx⟩ := hex
    exact ⟨x, hx, hval x hx⟩

/-! ### C93 -/

theorem ssLeft_mono {P : List Int} (hP : P.Pairwise (· < ·)) {a b : Int} (hab : a ≤ b) : ssLeft P a ≤ ssLeft P b := by
  rw [ssLeft_filter hP, ssLeft_filter hP]
  have : (P.filter (fun x => decide (x < a))).length ≤ (P.filter (fun x => decide (x < b))).length := by
    rw [← List.countP_eq_length_filter, ← List.countP_eq_length_filter]
    apply List.countP_mono_left
    intro x _ hx
    simp only [decide_eq_true_eq] at hx ⊢; omega
  omega

theorem lt_of_ssLeft_lt {P : List Int} (hP : P.Pairwise (· < ·)) {a b : Int} (h : ssLeft P a < ssLeft P b) : a < b := by
  apply Decidable.byContradiction
  intro hn
  have := ssLeft_mono hP (a := b) (b := a) (by omega)
  omega

theorem le_of_ssLeft_le {P : List Int} (hP : P.Pairwise (· < ·)) {a b : Int} (hb : b ∈ P) (h : ssLeft P a ≤ ssLeft P b) : a ≤ b := by
  apply Decidable.byContradiction
  intro hn
  have := ssLeft_succ_of_mem hP hb
  have := ssLeft_mono hP (a := b + 1) (b := a) (by omega)
  omega

/-- The outcome of rolling in terms of ranks. -/
theorem rollforward_rank {tb : Timeboard L} (h : tb.Reachable) {k : Int} {sw sch : Option (Schedule L)} {w : Workshift L}
    (hw : Workshift.new tb k sw = .ok w) (h0 : tb.OwnsOpt sw) (h1 : tb.OwnsOpt sch) (n : Int) {d : Duty} (hd : d = .on ∨ d = .off ∨ d = .any) :
    (∀ w', w.rollforward tb n d sch = .ok w' → w'.loc ∈ tb.allPositions (sch.getD w.schedule).selector d ∧
      ssLeft (tb.allPositions (sch.getD w.schedule).selector d) w'.loc = ssLeft (tb.allPositions (sch.getD w.schedule).selector d) k + n ∧
      ssLeft (tb.allPositions (sch.getD w.schedule).selector d) k < (tb.allPositions (sch.getD w.schedule).selector d).length) ∧
    (∀ t, t ∈ tb.allPositions (sch.getD w.schedule).selector d →
      ssLeft (tb.allPositions (sch.getD w.schedule).selector d) t = ssLeft (tb.allPositions (sch.getD w.schedule).selector d) k + n →
      ssLeft (tb.allPositions (sch.getD w.schedule).selector d) k < (tb.allPositions (sch.getD w.schedule).selector d).length →
      ∃ w', w.rollforward tb n d sch = .ok w' ∧ w'.loc = t) := by
  have hv := h.valid
  have ho := owns_roll hv hw h0 h1
  have hl := Workshift.new_label hw
  have hloc := Workshift.new_loc hw
  subst hloc
  have hs : (tb.allPositions (sch.getD w.schedule).selector d).Pairwise (· < ·) := tb.pairwise_dutyPositions _ _ _ _
  have hr := allPositions_range (tb := tb) (sel := (sch.getD w.schedule).selector) (d := d)
  rw [Workshift.rollforward_eq (Workshift.dutyIndex_eq hv hl ho hd)]
  generalize tb.allPositions (sch.getD w.schedule).selector d = P at *
  have hle := ssLeft_le P w.loc
  constructor
  · intro w' hw'
    split at hw'
    · cases hw'
    · obtain ⟨t, a, b, c⟩ := (pick_ok_iff hs).1 hw'
      have e := Workshift.new_loc c
      subst e
      exact ⟨a, b, by omega⟩
  · intro t a b c
    obtain ⟨w', hw', hl', _⟩ := Workshift.exists_of_range hv (some (sch.getD w.schedule)) (hr t a).1 (hr t a).2
    rw [if_neg (by omega)]
    exact ⟨w', (pick_ok_iff hs).2 ⟨t, a, b, hw'⟩, hl'⟩

theorem rollback_rank {tb : Timeboard L} (h : tb.Reachable) {k : Int} {sw sch : Option (Schedule L)} {w : Workshift L}
    (hw : Workshift.new tb k sw = .ok w) (h0 : tb.OwnsOpt sw) (h1 : tb.OwnsOpt sch) (n : Int) {d : Duty} (hd : d = .on ∨ d = .off ∨ d = .any) :
    (∀ w', w.rollback tb n d sch = .ok w' → w'.loc ∈ tb.allPositions (sch.getD w.schedule).selector d ∧
      ssLeft (tb.allPositions (sch.getD w.schedule).selector d) w'.loc = ssLeft (tb.allPositions (sch.getD w.schedule).selector d) (k + 1) - 1 - n ∧
      0 < ssLeft (tb.allPositions (sch.getD w.schedule).selector d) (k + 1)) ∧
    (∀ t, t ∈ tb.allPositions (sch.getD w.schedule).selector d →
      ssLeft (tb.allPositions (sch.getD w.schedule).selector d) t = ssLeft (tb.allPositions (sch.getD w.schedule).selector d) (k + 1) - 1 - n →
      0 < ssLeft (tb.allPositions (sch.getD w.schedule).selector d) (k + 1) →
      ∃ w', w.rollback tb n d sch = .ok w' ∧ w'.loc = t) := by
  have hv := h.valid
  have ho := owns_roll hv hw h0 h1
  have hl := Workshift.new_label hw
  have hloc := Workshift.new_loc hw
  subst hloc
  have hs : (tb.allPositions (sch.getD w.schedule).selector d).Pairwise (· < ·) := tb.pairwise_dutyPositions _ _ _ _
  have hr := allPositions_range (tb := tb) (sel := (sch.getD w.schedule).selector) (d := d)
  rw [Workshift.rollback_eq (Workshift.dutyIndex_eq hv hl ho hd) hs]
  generalize tb.allPositions (sch.getD w.schedule).selector d = P at *
  have hnn := ssLeft_nonneg P (w.loc + 1)
  constructor
  · intro w' hw'
    split at hw'
    · cases hw'
    · obtain ⟨t, a, b, c⟩ := (pick_ok_iff hs).1 hw'
      have e := Workshift.new_loc c
      subst e
      exact ⟨a, b, by omega⟩
  · intro t a b c
    obtain ⟨w', hw', hl', _⟩ := Workshift.exists_of_range hv (some (sch.getD w.schedule)) (hr t a).1 (hr t a).2
    rw [if_neg (by omega)]
    exact ⟨w', (pick_ok_iff hs).2 ⟨t, a, b, hw'⟩, hl'⟩

theorem exists_rank {P : List Int} (hP : P.Pairwise (· < ·)) {j : Int} (h0 : 0 ≤ j) (h1 : j < P.length) : ∃ t, t ∈ P ∧ ssLeft P t = j := by
  refine ⟨P[j.toNat]'(by omega), List.getElem_mem _, ?_⟩
  rw [ssLeft_getElem hP]; omega

theorem ssLeft_lt_length {P : List Int} (hP : P.Pairwise (· < ·)) {t : Int} (h : t ∈ P) : ssLeft P t < P.length := by
  obtain ⟨i, hi, rfl⟩ := List.mem_iff_getElem.1 h
  rw [ssLeft_getElem hP]; omega

/-- **C93**, starting later and making more steps: of two workshifts at positions `k ≤ k'` rolled by `n ≤ n'` steps under the same
schedule, the second one does not land before the first; it lands after it if `n < n'`.  If `n` is not negative and the second
rolling succeeds, so does the first.  The same for rolling back, towards the past. -/
theorem C93_later_start {tb : Timeboard L} (h : tb.Reachable) {k k' : Int} {sw sw' sch sch' : Option (Schedule L)} {w w' : Workshift L}
    (hw : Workshift.new tb k sw = .ok w) (hw' : Workshift.new tb k' sw' = .ok w') (h0 : tb.OwnsOpt sw) (h0' : tb.OwnsOpt sw')
    (h1 : tb.OwnsOpt sch) (h1' : tb.OwnsOpt sch') (hsame : sch.getD w.schedule = sch'.getD w'.schedule) {n n' : Int} (hn : n ≤ n') {d : Duty}
    (hd : d = .on ∨ d = .off ∨ d = .any) :
    (k ≤ k' →
      (∀ x y, w.rollforward tb n d sch = .ok x → w'.rollforward tb n' d sch' = .ok y → x.loc ≤ y.loc ∧ (n < n' → x.loc < y.loc)) ∧
      (0 ≤ n → ∀ y, w'.rollforward tb n' d sch' = .ok y → ∃ x, w.rollforward tb n d sch = .ok x)) ∧
    (k' ≤ k →
      (∀ x y, w.rollback tb n d sch = .ok x → w'.rollback tb n' d sch' = .ok y → y.loc ≤ x.loc ∧ (n < n' → y.loc < x.loc)) ∧
      (0 ≤ n → ∀ y, w'.rollback tb n' d sch' = .ok y → ∃ x, w.rollback tb n d sch = .ok x)) := by
  have hs : (tb.allPositions (sch.getD w.schedule).selector d).Pairwise (· < ·) := tb.pairwise_dutyPositions _ _ _ _
  obtain ⟨f1, f2⟩ := rollforward_rank h hw h0 h1 n hd
  obtain ⟨g1, _⟩ := rollforward_rank h hw' h0' h1' n' hd
  obtain ⟨b1, b2⟩ := rollback_rank h hw h0 h1 n hd
  obtain ⟨c1, _⟩ := rollback_rank h hw' h0' h1' n' hd
  rw [← hsame] at g1 c1
  generalize tb.allPositions (sch.getD w.schedule).selector d = P at *
  constructor
  · intro hk
    have hm := ssLeft_mono hs hk
    constructor
    · intro x y hx hy
      obtain ⟨p1, p2, _⟩ := f1 x hx
      obtain ⟨q1, q2, _⟩ := g1 y hy
      exact ⟨le_of_ssLeft_le hs q1 (by omega), fun hlt => lt_of_ssLeft_lt hs (by omega)⟩
    · intro hn0 y hy
      obtain ⟨q1, q2, q3⟩ := g1 y hy
      have := ssLeft_lt_length hs q1
      have := ssLeft_nonneg P k
      obtain ⟨t, t1, t2⟩ := exists_rank hs (j := ssLeft P k + n) (by omega) (by omega)
      obtain ⟨x, hx, _⟩ := f2 t t1 t2 (by omega)
      exact ⟨x, hx⟩
  · intro hk
    have hm := ssLeft_mono hs (show k' + 1 ≤ k + 1 by omega)
    constructor
    · intro x y hx hy
      obtain ⟨p1, p2, _⟩ := b1 x hx
      obtain ⟨q1, q2, _⟩ := c1 y hy
      exact ⟨le_of_ssLeft_le hs p1 (by omega), fun hlt => lt_of_ssLeft_lt hs (by omega)⟩
    · intro hn0 y hy
      obtain ⟨q1, q2, q3⟩ := c1 y hy
      have := ssLeft_nonneg P y.loc
      have := ssLeft_le P (k + 1)
      obtain ⟨t, t1, t2⟩ := exists_rank hs (j := ssLeft P (k + 1) - 1 - n) (by omega) (by omega)
      obtain ⟨x, hx, _⟩ := b2 t t1 t2 (by omega)
      exact ⟨x, hx⟩

/-- Counting elements of a larger list in a range. -/
theorem ssLeft_covers {P Q : List Int} (hP : P.Pairwise (· < ·)) (hQ : Q.Pairwise (· < ·)) (h : ∀ x ∈ P, x ∈ Q) {a b : Int} (hab : a ≤ b) :
    ssLeft P b - ssLeft P a ≤ ssLeft Q b - ssLeft Q a := by
  have hm : ∀ R : List Int, ∀ j, j ∈ R.filter (fun j => decide (a ≤ j) && decide (j < b)) ↔ (a ≤ j ∧ j < b ∧ j ∈ R) := by
    intro R j; rw [List.mem_filter]; simp
    constructor
    · rintro ⟨x, y, z⟩; exact ⟨y, z, x⟩
    · rintro ⟨x, y, z⟩; exact ⟨z, x, y⟩
  rw [ssLeft_sub hP hab (hP.filter _) (hm P), ssLeft_sub hQ hab (hQ.filter _) (hm Q)]
  have := ((sublist_of_pairwise_lt hP hQ h).filter (fun j => decide (a ≤ j) && decide (j < b))).length_le
  omega

/-- **C93**, richer schedules: if every workshift with the duty under schedule `s` has it under `s'`, then making `n ≥ 0` steps
under `s'` succeeds whenever it does under `s` and lands not farther. -/
theorem C93_richer_schedule {tb : Timeboard L} (h : tb.Reachable) {k : Int} {sw : Option (Schedule L)} {w : Workshift L}
    (hw : Workshift.new tb k sw = .ok w) (h0 : tb.OwnsOpt sw) {s s' : Schedule L} (h1 : tb.Owns s) (h1' : tb.Owns s') {d : Duty}
    (hd : d = .on ∨ d = .off ∨ d = .any) (hss : tb.Covers d s s') {n : Int} (hn : 0 ≤ n) :
    (∀ x, w.rollforward tb n d (some s) = .ok x → ∃ y, w.rollforward tb n d (some s') = .ok y ∧ k ≤ y.loc ∧ y.loc ≤ x.loc) ∧
    (∀ x, w.rollback tb n d (some s) = .ok x → ∃ y, w.rollback tb n d (some s') = .ok y ∧ x.loc ≤ y.loc ∧ y.loc ≤ k) := by
  have hv := h.valid
  have o1 : tb.OwnsOpt (some s) := by intro x hx; cases hx; exact h1
  have o2 : tb.OwnsOpt (some s') := by intro x hx; cases hx; exact h1'
  have hP : (tb.allPositions s.selector d).Pairwise (· < ·) := tb.pairwise_dutyPositions _ _ _ _
  have hQ : (tb.allPositions s'.selector d).Pairwise (· < ·) := tb.pairwise_dutyPositions _ _ _ _
  have hsub : ∀ x ∈ tb.allPositions s.selector d, x ∈ tb.allPositions s'.selector d := by
    intro x hx
    exact hv.mem_allPositions.2 (hss x (hv.mem_allPositions.1 hx))
  obtain ⟨f1, _⟩ := rollforward_rank h hw h0 o1 n hd
  obtain ⟨_, g2⟩ := rollforward_rank h hw h0 o2 n hd
  obtain ⟨b1, _⟩ := rollback_rank h hw h0 o1 n hd
  obtain ⟨_, c2⟩ := rollback_rank h hw h0 o2 n hd
  simp only [Option.getD_some] at f1 g2 b1 c2
  generalize tb.allPositions s.selector d = P at *
  generalize tb.allPositions s'.selector d = Q at *
  constructor
  · intro x hx
    obtain ⟨p1, p2, p3⟩ := f1 x hx
    have hk : k ≤ x.loc := le_of_ssLeft_le hP p1 (by omega)
    have hc := ssLeft_covers hP hQ hsub hk
    have hl := ssLeft_lt_length hQ (hsub _ p1)
    have := ssLeft_nonneg Q k
    obtain ⟨t, t1, t2⟩ := exists_rank hQ (j := ssLeft Q k + n) (by omega) (by omega)
    obtain ⟨y, hy, e⟩ := g2 t t1 t2 (by omega)
    subst e
    exact ⟨y, hy, le_of_ssLeft_le hQ t1 (by omega), le_of_ssLeft_le hQ (hsub _ p1) (by omega)⟩
  · intro x hx
    obtain ⟨p1, p2, p3⟩ := b1 x hx
    have e1 := ssLeft_succ_of_mem hP p1
    have hk : x.loc < k + 1 := lt_of_ssLeft_lt hP (by omega)
    have hc := ssLeft_covers hP hQ hsub (a := x.loc) (b := k + 1) (by omega)
    have hl := ssLeft_le Q (k + 1)
    have := ssLeft_nonneg Q x.loc
    obtain ⟨t, t1, t2⟩ := exists_rank hQ (j := ssLeft Q (k + 1) - 1 - n) (by omega) (by omega)
    obtain ⟨y, hy, e⟩ := c2 t t1 t2 (by omega)
    subst e
    refine ⟨y, hy, le_of_ssLeft_le hQ t1 (by omega), ?_⟩
    have := lt_of_ssLeft_lt hQ (a := y.loc) (b := k + 1) (by omega)
    omega

/-- **C93**, the way: `n ≥ 0` steps forward lead at least `n` positions to the future and `n` steps back at least `n` to the past. -/
theorem C93_at_least {tb : Timeboard L} (h : tb.Reachable) {k : Int} {sw sch : Option (Schedule L)} {w : Workshift L}
    (hk : 0 ≤ k ∧ k < tb.timeline.len) (hw : Workshift.new tb k sw = .ok w) (h0 : tb.OwnsOpt sw) (h1 : tb.OwnsOpt sch) {d : Duty}
    (hd : d = .on ∨ d = .off ∨ d = .any) {n : Int} (hn : 0 ≤ n) :
    (∀ x, w.rollforward tb n d sch = .ok x → k + n ≤ x.loc) ∧ (∀ x, w.rollback tb n d sch = .ok x → x.loc ≤ k - n) := by
  have hv := h.valid
  have hP : (tb.allPositions (sch.getD w.schedule).selector d).Pairwise (· < ·) := tb.pairwise_dutyPositions _ _ _ _
  obtain ⟨f1, _⟩ := rollforward_rank h hw h0 h1 n hd
  obtain ⟨b1, _⟩ := rollback_rank h hw h0 h1 n hd
  generalize tb.allPositions (sch.getD w.schedule).selector d = P at *
  have hR : ∀ a b : Int, a ≤ b → ssLeft P b - ssLeft P a ≤ b - a := by
    intro a b hab
    rw [ssLeft_sub hP hab (Q := P.filter (fun j => decide (a ≤ j) && decide (j < b))) (hP.filter _) (by
      intro j; rw [List.mem_filter]; simp
      constructor
      · rintro ⟨x, y, z⟩; exact ⟨y, z, x⟩
      · rintro ⟨x, y, z⟩; exact ⟨z, x, y⟩)]
    have h2 := (sublist_of_pairwise_lt (hP.filter (fun j => decide (a ≤ j) && decide (j < b))) (pairwise_intRange a b) (by
      intro x hx
      rw [List.mem_filter] at hx
      simp only [Bool.and_eq_true, decide_eq_true_eq] at hx
      rw [mem_intRange]; exact hx.2)).length_le
    rw [length_intRange] at h2
    omega
  constructor
  · intro x hx
    obtain ⟨p1, p2, _⟩ := f1 x hx
    have := hR k x.loc (le_of_ssLeft_le hP p1 (by omega))
    omega
  · intro x hx
    obtain ⟨p1, p2, p3⟩ := b1 x hx
    have e := ssLeft_succ_of_mem hP p1
    have hlt : x.loc < k + 1 := lt_of_ssLeft_lt hP (by omega)
    have := hR (x.loc + 1) (k + 1) (by omega)
    omega

/-! Examples on the standard week: 3-9 January as a part of 1-20 January; a schedule which adds the days off to the working days. -/

/-- A schedule under which every day is a working day. -/
def everyDay : Schedule Int := Schedule.new week.timeline "every day" (fun _ => true)

example : week.Owns everyDay ∧ week.Covers .on week.defaultSchedule everyDay := by
  refine ⟨rfl, ?_⟩
  rintro k ⟨h0, h1, _⟩
  obtain ⟨w, hw, _, _, hl, _⟩ := Workshift.exists_of_range week_reachable.valid (some everyDay) h0 h1
  refine week_reachable.valid.dutyAt_iff.2 ⟨h0, h1, w.label, hl, rfl⟩
example : ∃ u v, Interval.new week (2, 8) = .ok u ∧ Interval.new week (0, 19) = .ok v ∧ week.HasInterval u ∧ week.HasInterval v ∧
    u.PartOf v week := by
  obtain ⟨u, hu⟩ : ∃ u, Interval.new week (2, 8) = .ok u := ⟨_, Interval.new_ok_iff.2 ⟨by decide +kernel, by decide +kernel, by decide +kernel, rfl⟩⟩
  obtain ⟨v, hv⟩ : ∃ u, Interval.new week (0, 19) = .ok u := ⟨_, Interval.new_ok_iff.2 ⟨by decide +kernel, by decide +kernel, by decide +kernel, rfl⟩⟩
  have n : week.OwnsOpt none := by intro x hx; cases hx
  have iu : week.HasInterval u := .new n hu
  have iv : week.HasInterval v := .new n hv
  refine ⟨u, v, hu, hv, iu, iv, ?_⟩
  intro k
  rw [(iu.fine week_reachable.valid).contains_iff week_reachable.valid, (iv.fine week_reachable.valid).contains_iff week_reachable.valid]
  obtain ⟨_, _, _, rfl⟩ := Interval.new_ok_iff.1 hu
  obtain ⟨_, _, _, rfl⟩ := Interval.new_ok_iff.1 hv
  simp only; omega
example : exWork week (2, 8) .on = .ok 6 ∧ exWork week (0, 19) .on = .ok 15 ∧
    ((Interval.new week (2, 8)).bind (fun v => v.count week .on (some everyDay))) = .ok 7 ∧
    ((Interval.new week (4, 6)).bind (fun v => v.countPeriods week fW .on)) = .ok ((2 : Rat) / 5) ∧
    ((Interval.new week (4, 16)).bind (fun v => v.countPeriods week fW .on)) = .ok 2 ∧
    exPortion (2, 8) (7, 20) .on = .ok (2/11 : Rat) ∧ exPortion (0, 19) (7, 20) .on = .ok (1 : Rat) := by decide +kernel
example : exRoll 5 2 .on true = .ok 8 ∧ exRoll 6 3 .on true = .ok 10 ∧
    ((Workshift.new week 5).bind (fun w => (w.rollforward week 2 .on (some everyDay)).map (fun w => w.loc))) = .ok 7 ∧
    exRoll 6 2 .on false = .ok 3 ∧
    ((Workshift.new week 6).bind (fun w => (w.rollback week 2 .on (some everyDay)).map (fun w => w.loc))) = .ok 4 := by decide +kernel

end TB
