import Verif.Lemmas.Schedule
/-! Laws of timeboards and intervals. -/
namespace TB
set_option linter.unusedSectionVars false
variable {L : Type}

/-! ### reachable timeboards -/

/-- The invariant of timeboards. -/
structure Timeboard.Valid (tb : Timeboard L) : Prop where
  wf : tb.timeline.WF
  default_owned : tb.Owns tb.defaultSchedule
  owned : ∀ p ∈ tb.schedules, tb.Owns p.2 ∧ p.1 = p.2.name
  names : (tb.schedules.map Prod.fst).Nodup
  source : tb.worktimeSource = "duration" ∨ tb.worktimeSource = "labels"

theorem Timeboard.new_ok_iff {a : Args L} {heap heap' : Heap L} {tb : Timeboard L} :
    Timeboard.new a heap = .ok (tb, heap') ↔
      ∃ org frame tl0 tl, makeOrganizer a.layout = .ok org ∧ a.worktimeSource ∈ ["duration", "labels"] ∧
        Frame.new a.freq a.start a.stop = .ok frame ∧
        Timeline.new frame (some org) a.refEnd a.defaultLabel heap = .ok (tl0, heap') ∧
        tl0.amend a.amendments = .ok tl ∧
        tb = { timeline := tl, defaultSchedule := Schedule.new tl (a.defaultName.getD "on_duty") a.selector
               schedules := [(a.defaultName.getD "on_duty", Schedule.new tl (a.defaultName.getD "on_duty") a.selector)]
               worktimeSource := a.worktimeSource } := by
  unfold Timeboard.new
  constructor
  · intro h
    split at h
    · simp at h
    · rename_i org horg
      split at h
      · simp at h
      · rename_i hw
        split at h
        · simp at h
        · rename_i frame hf
          split at h
          · simp at h
          · rename_i tl0 h' htl
            split at h
            · simp at h
            · rename_i tl ha
              simp only [Except.ok.injEq, Prod.mk.injEq] at h
              obtain ⟨rfl, rfl⟩ := h
              exact ⟨org, frame, tl0, tl, horg, Decidable.not_not.1 hw, hf, htl, ha, rfl⟩
  · rintro ⟨org, frame, tl0, tl, h1, h2, h3, h4, h5, rfl⟩
    simp [h1, h2, h3, h4, h5]

theorem Timeboard.owns_new (tb : Timeboard L) (name : String) (sel : L → Bool) :
    tb.Owns (Schedule.new tb.timeline name sel) := rfl

theorem Timeboard.Reachable.valid {tb : Timeboard L} (h : tb.Reachable) : tb.Valid := by
  induction h with
  | @new a heap heap' tb h =>
    obtain ⟨org, frame, tl0, tl, h1, h2, h3, h4, h5, rfl⟩ := Timeboard.new_ok_iff.1 h
    have hn := Frame.new_valid h3
    refine ⟨Timeline.amend_wf (Timeline.new_wf hn h4).1 h5, rfl, ?_, by simp, by simpa using h2⟩
    intro p hp
    simp at hp; subst hp
    exact ⟨rfl, rfl⟩
  | @add tb tb' name sel s hr h ih =>
    unfold Timeboard.addSchedule at h
    split at h
    · simp at h
    · rename_i hn
      simp only [Except.ok.injEq, Prod.mk.injEq] at h
      obtain ⟨rfl, rfl⟩ := h
      refine ⟨ih.wf, ih.default_owned, ?_, ?_, ih.source⟩
      · intro p hp
        simp only [List.mem_append, List.mem_singleton] at hp
        rcases hp with hp | hp
        · exact ih.owned p hp
        · subst hp; exact ⟨rfl, rfl⟩
      · simp only [List.map_append, List.map_cons, List.map_nil]
        rw [List.nodup_append]
        refine ⟨ih.names, by simp, ?_⟩
        intro x hx y hy
        simp at hy; subst hy
        intro hxy; subst hxy
        apply hn
        obtain ⟨p, hp, rfl⟩ := List.mem_map.1 hx
        rw [List.any_eq_true]
        exact ⟨p, hp, by simp⟩
  | @drop tb tb' s hr h ih =>
    unfold Timeboard.dropSchedule at h
    split at h
    · simp only [Except.ok.injEq] at h
      subst h
      refine ⟨ih.wf, ih.default_owned, ?_, ?_, ih.source⟩
      · intro p hp
        exact ih.owned p (List.mem_filter.1 hp).1
      · exact ih.names.sublist ((List.filter_sublist).map _)
    · simp at h

theorem Timeboard.Valid.effective_owned {tb : Timeboard L} (hv : tb.Valid) {s : Option (Schedule L)} (hs : tb.OwnsOpt s) :
    tb.Owns (tb.effective s) := by
  cases s with
  | none => exact hv.default_owned
  | some x => exact hs x rfl

/-! ### labels -/

theorem Timeline.WF.label_eq {tl : Timeline L} (wf : tl.WF) {k : Int} (h0 : 0 ≤ k) (h1 : k < tl.len) :
    ∃ h : k.toNat < tl.labels.length, tl.label k = .ok tl.labels[k.toNat] := by
  have := wf.labels_len
  unfold Timeline.len at h1
  refine ⟨by omega, ?_⟩
  unfold Timeline.label
  rw [pyGet?_lt _ h0 (by omega)]; rfl

theorem Timeline.WF.label_ok {tl : Timeline L} (wf : tl.WF) {k : Int} (h0 : 0 ≤ k) (h1 : k < tl.len) :
    ∃ l, tl.label k = .ok l := by
  obtain ⟨h, e⟩ := wf.label_eq h0 h1; exact ⟨_, e⟩

/-! ### positions by duty -/

theorem Timeboard.mem_dutyPositions {tb : Timeboard L} {sel : L → Bool} {duty : Duty} {lo hi x : Int} :
    x ∈ tb.dutyPositions sel duty lo hi ↔
      (lo ≤ x ∧ x ≤ hi ∧ ∃ l, tb.timeline.label x = .ok l ∧ dutyMatches duty sel l = true) := by
  unfold Timeboard.dutyPositions
  rw [List.mem_filter, mem_intRange]
  cases tb.timeline.label x with
  | error e => simp
  | ok l =>
    simp only [Except.ok.injEq]
    constructor
    · rintro ⟨h1, h2⟩; exact ⟨h1.1, by omega, l, rfl, h2⟩
    · rintro ⟨h1, h2, l', h3, h4⟩; subst h3; exact ⟨⟨h1, by omega⟩, h4⟩

theorem Timeboard.pairwise_dutyPositions (tb : Timeboard L) (sel : L → Bool) (duty : Duty) (lo hi : Int) :
    (tb.dutyPositions sel duty lo hi).Pairwise (· < ·) := (pairwise_intRange _ _).filter _

theorem Timeboard.dutyPositions_sub {tb : Timeboard L} {sel : L → Bool} {duty : Duty} {lo hi lo' hi' : Int}
    (h0 : lo ≤ lo') (h1 : hi' ≤ hi) :
    (tb.dutyPositions sel duty lo hi).filter (fun x => decide (lo' ≤ x) && decide (x ≤ hi')) =
      tb.dutyPositions sel duty lo' hi' := by
  apply eq_of_pairwise_lt
  · exact (tb.pairwise_dutyPositions _ _ _ _).filter _
  · exact tb.pairwise_dutyPositions _ _ _ _
  · intro x
    rw [List.mem_filter, Timeboard.mem_dutyPositions, Timeboard.mem_dutyPositions]
    simp only [Bool.and_eq_true, decide_eq_true_eq]
    constructor
    · rintro ⟨⟨_, _, h⟩, h1, h2⟩; exact ⟨h1, h2, h⟩
    · rintro ⟨h2, h3, h4⟩; exact ⟨⟨by omega, by omega, h4⟩, h2, h3⟩

/-- All positions with the duty. -/
abbrev Timeboard.allPositions (tb : Timeboard L) (sel : L → Bool) (duty : Duty) : List Int :=
  tb.dutyPositions sel duty 0 (tb.timeline.len - 1)

theorem Timeboard.Valid.nonzeroBy_eq {tb : Timeboard L} (hv : tb.Valid) (sel : L → Bool) (duty : Duty) :
    nonzeroBy (dutyMatches duty sel) tb.timeline.labels 0 = tb.allPositions sel duty := by
  apply eq_of_pairwise_lt (pairwise_nonzeroBy _ _ _) (tb.pairwise_dutyPositions _ _ _ _)
  intro x
  have hl := hv.wf.labels_len
  rw [mem_nonzeroBy, Timeboard.mem_dutyPositions]
  constructor
  · rintro ⟨k, h, h1, h2⟩
    have h0 : x = (k : Int) := by omega
    subst h0
    have hlen : (k : Int) < tb.timeline.len := by unfold Timeline.len; omega
    obtain ⟨h', e⟩ := hv.wf.label_eq (k := k) (by omega) hlen
    exact ⟨by omega, by omega, _, e, by simpa using h2⟩
  · rintro ⟨h0, h1, l, h2, h3⟩
    obtain ⟨h', e⟩ := hv.wf.label_eq (k := x) h0 (by omega)
    rw [e] at h2
    simp only [Except.ok.injEq] at h2
    exact ⟨x.toNat, h', by omega, by rw [h2]; exact h3⟩

theorem Timeboard.Valid.onIdx_eq {tb : Timeboard L} (hv : tb.Valid) {s : Schedule L} (ho : tb.Owns s) :
    s.onIdx = tb.allPositions s.selector .on := by
  rw [← hv.nonzeroBy_eq]
  have : s.onIdx = (Schedule.new tb.timeline s.name s.selector).onIdx := congrArg Schedule.onIdx ho
  rw [this]; rfl

theorem Timeboard.Valid.offIdx_eq {tb : Timeboard L} (hv : tb.Valid) {s : Schedule L} (ho : tb.Owns s) :
    s.offIdx = tb.allPositions s.selector .off := by
  rw [← hv.nonzeroBy_eq]
  have : s.offIdx = (Schedule.new tb.timeline s.name s.selector).offIdx := congrArg Schedule.offIdx ho
  rw [this]; rfl

theorem Timeboard.Valid.dutyPositions_any {tb : Timeboard L} (hv : tb.Valid) (sel : L → Bool) {lo hi : Int}
    (h0 : 0 ≤ lo) (h1 : hi < tb.timeline.len) : tb.dutyPositions sel .any lo hi = intRange lo (hi + 1) := by
  unfold Timeboard.dutyPositions
  rw [List.filter_eq_self]
  intro x hx
  rw [mem_intRange] at hx
  obtain ⟨l, hl⟩ := hv.wf.label_ok (k := x) (by omega) (by omega)
  rw [hl]; rfl

theorem Timeboard.Valid.index_eq {tb : Timeboard L} (hv : tb.Valid) (sel : L → Bool) :
    tb.timeline.index = tb.allPositions sel .any := by
  rw [Timeboard.allPositions, hv.dutyPositions_any sel (by omega) (by omega)]
  unfold Timeline.index
  have : tb.timeline.len - 1 + 1 = tb.timeline.len := by omega
  rw [this]

/-! ### intervals -/

theorem handleBound_ok_iff {tb : Timeboard L} {x y : Int} :
    handleBound tb x = .ok y ↔ (0 ≤ x ∧ x < tb.timeline.len ∧ y = x) := by
  unfold handleBound
  split
  · rename_i h; simp; omega
  · rename_i h; simp; omega

theorem handleBound_error_iff {tb : Timeboard L} {x : Int} {e : Err} :
    handleBound tb x = .error e ↔ (¬ (0 ≤ x ∧ x < tb.timeline.len) ∧ e = .outOfBounds) := by
  unfold handleBound
  split
  · rename_i h; simp [h]
  · rename_i h; simp [h]; exact eq_comm

theorem handleBound_pos {tb : Timeboard L} {x : Int} (h0 : 0 ≤ x) (h1 : x < tb.timeline.len) : handleBound tb x = .ok x :=
  handleBound_ok_iff.2 ⟨h0, h1, rfl⟩

theorem handleBound_neg {tb : Timeboard L} {x : Int} (h : ¬ (0 ≤ x ∧ x < tb.timeline.len)) :
    handleBound tb x = .error .outOfBounds := handleBound_error_iff.2 ⟨h, rfl⟩

theorem Interval.new_ok_iff {tb : Timeboard L} {a b : Int} {sch : Option (Schedule L)} {v : Interval L} :
    Interval.new tb (a, b) sch = .ok v ↔
      (0 ≤ a ∧ a ≤ b ∧ b < tb.timeline.len ∧
        v = { lo := a, hi := b, length := b - a + 1, isVoid := false, schedule := tb.effective sch }) := by
  unfold Interval.new Interval.make Timeboard.effective
  by_cases ha : 0 ≤ a ∧ a < tb.timeline.len
  · rw [handleBound_pos ha.1 ha.2]
    by_cases hb : 0 ≤ b ∧ b < tb.timeline.len
    · rw [handleBound_pos hb.1 hb.2]
      simp only [Bool.false_eq_true, if_false]
      by_cases hab : a > b
      · rw [if_pos hab]; simp; omega
      · rw [if_neg hab]; simp only [Except.ok.injEq]
        constructor
        · intro h; exact ⟨by omega, by omega, by omega, h.symm⟩
        · intro h; exact h.2.2.2.symm
    · rw [handleBound_neg hb]; simp; omega
  · rw [handleBound_neg ha]; simp; omega

theorem Interval.new_error_iff {tb : Timeboard L} {a b : Int} {sch : Option (Schedule L)} {e : Err} :
    Interval.new tb (a, b) sch = .error e ↔
      ((e = .outOfBounds ∧ ¬ (0 ≤ a ∧ a < tb.timeline.len ∧ 0 ≤ b ∧ b < tb.timeline.len)) ∨
       (e = .voidInterval ∧ 0 ≤ a ∧ a < tb.timeline.len ∧ 0 ≤ b ∧ b < tb.timeline.len ∧ b < a)) := by
  unfold Interval.new Interval.make
  by_cases ha : 0 ≤ a ∧ a < tb.timeline.len
  · rw [handleBound_pos ha.1 ha.2]
    by_cases hb : 0 ≤ b ∧ b < tb.timeline.len
    · rw [handleBound_pos hb.1 hb.2]
      simp only [Bool.false_eq_true, if_false]
      by_cases hab : a > b
      · rw [if_pos hab]; simp only [Except.error.injEq]
        constructor
        · intro h; right; exact ⟨h.symm, by omega⟩
        · rintro (h | h)
          · omega
          · exact h.1.symm
      · rw [if_neg hab]
        constructor
        · intro h; cases h
        · intro h; omega
    · rw [handleBound_neg hb]
      simp only [Except.error.injEq]
      constructor
      · intro h; left; exact ⟨h.symm, by omega⟩
      · rintro (h | h)
        · exact h.1.symm
        · omega
  · rw [handleBound_neg ha]
    simp only [Except.error.injEq]
    constructor
    · intro h; left; exact ⟨h.symm, by omega⟩
    · rintro (h | h)
      · exact h.1.symm
      · omega

theorem Interval.newVoid_ok_iff {tb : Timeboard L} {a b : Int} {sch : Option (Schedule L)} {v : Interval L} :
    Interval.newVoid tb (a, b) sch = .ok v ↔
      (0 ≤ b ∧ b < a ∧ a < tb.timeline.len ∧
        v = { lo := a, hi := b, length := 0, isVoid := true, schedule := tb.effective sch }) := by
  unfold Interval.newVoid Interval.make Timeboard.effective
  by_cases ha : 0 ≤ a ∧ a < tb.timeline.len
  · rw [handleBound_pos ha.1 ha.2]
    by_cases hb : 0 ≤ b ∧ b < tb.timeline.len
    · rw [handleBound_pos hb.1 hb.2]
      simp only [if_true]
      by_cases hab : a ≤ b
      · rw [if_pos hab]; simp; omega
      · rw [if_neg hab]; simp only [Except.ok.injEq]
        constructor
        · intro h; exact ⟨by omega, by omega, by omega, h.symm⟩
        · intro h; exact h.2.2.2.symm
    · rw [handleBound_neg hb]; simp; omega
  · rw [handleBound_neg ha]; simp; omega

/-- A regular interval: the positions of its workshifts. -/
structure Interval.Proper (v : Interval L) (tb : Timeboard L) : Prop where
  lo_nonneg : 0 ≤ v.lo
  lo_le_hi : v.lo ≤ v.hi
  hi_lt : v.hi < tb.timeline.len
  not_void : v.isVoid = false
  length_eq : v.length = v.hi - v.lo + 1

theorem Interval.new_proper {tb : Timeboard L} {a b : Int} {sch : Option (Schedule L)} {v : Interval L}
    (h : Interval.new tb (a, b) sch = .ok v) : v.Proper tb := by
  obtain ⟨h1, h2, h3, rfl⟩ := Interval.new_ok_iff.1 h
  exact ⟨h1, h2, h3, rfl, rfl⟩

/-- The part of the duty index inside the interval. -/
theorem Interval.Proper.dutyIdx_spec {v : Interval L} {tb : Timeboard L} (hp : v.Proper tb) (hv : tb.Valid)
    {s : Schedule L} (ho : tb.Owns s) {duty : Duty} (hd : duty = .on ∨ duty = .off ∨ duty = .any) :
    (∃ idx, v.dutyIdx tb duty s = .ok (idx, none) ∧ tb.dutyPositions s.selector duty v.lo v.hi = []) ∨
    (∃ idx a b, v.dutyIdx tb duty s = .ok (idx, some (a, b)) ∧ 0 ≤ a ∧ a ≤ b ∧ b < idx.length ∧
      slice idx a b = tb.dutyPositions s.selector duty v.lo v.hi) := by
  have hlt := hp.hi_lt
  have h0 := hp.lo_nonneg
  have hle := hp.lo_le_hi
  rcases hd with rfl | rfl | rfl
  · have hf := findBounds_spec (v := v) (idx := s.onIdx) (by rw [hv.onIdx_eq ho]; exact tb.pairwise_dutyPositions _ _ _ _) hp.lo_le_hi
    rw [hv.onIdx_eq ho, Timeboard.dutyPositions_sub h0 (by omega)] at hf
    simp only [Interval.dutyIdx]
    rw [hv.onIdx_eq ho]
    rcases hf with ⟨h1, h2⟩ | ⟨a, b, h1, h2, h3, h4, h5⟩
    · left; exact ⟨_, by rw [h1], h2⟩
    · right; exact ⟨_, a, b, by rw [h1], h2, h3, h4, h5⟩
  · have hf := findBounds_spec (v := v) (idx := s.offIdx) (by rw [hv.offIdx_eq ho]; exact tb.pairwise_dutyPositions _ _ _ _) hp.lo_le_hi
    rw [hv.offIdx_eq ho, Timeboard.dutyPositions_sub h0 (by omega)] at hf
    simp only [Interval.dutyIdx]
    rw [hv.offIdx_eq ho]
    rcases hf with ⟨h1, h2⟩ | ⟨a, b, h1, h2, h3, h4, h5⟩
    · left; exact ⟨_, by rw [h1], h2⟩
    · right; exact ⟨_, a, b, by rw [h1], h2, h3, h4, h5⟩
  · right
    refine ⟨_, _, _, rfl, h0, hle, ?_, ?_⟩
    · unfold Timeline.index; rw [length_intRange]; omega
    · rw [hv.dutyPositions_any _ h0 hlt]
      exact slice_intRange h0 hle hlt

theorem Interval.dutyIdx_bad {v : Interval L} {tb : Timeboard L} {s : Schedule L} {duty : Duty}
    (hd : ¬ (duty = .on ∨ duty = .off ∨ duty = .any)) : v.dutyIdx tb duty s = .error .valueError := by
  cases duty <;> simp at hd <;> rfl

/-! ### interval methods -/

theorem mapM_workshift_new {tb : Timeboard L} (hv : tb.Valid) (s : Schedule L) {ks : List Int}
    (h : ∀ k ∈ ks, 0 ≤ k ∧ k < tb.timeline.len) :
    ∃ ws : List (Workshift L), ks.mapM (fun i => Workshift.new tb i (some s)) = .ok ws ∧
      ws.map (fun w => w.loc) = ks ∧
      ∀ w ∈ ws, w.schedule = s ∧ tb.timeline.label w.loc = .ok w.label := by
  induction ks with
  | nil => exact ⟨[], rfl, rfl, by simp⟩
  | cons k ks ih =>
    obtain ⟨ws, h1, h2, h3⟩ := ih (fun x hx => h x (by simp [hx]))
    have hk := h k (by simp)
    obtain ⟨l, hl⟩ := hv.wf.label_ok hk.1 hk.2
    refine ⟨{ loc := k, label := l, schedule := s } :: ws, ?_, by simp [h2], ?_⟩
    · rw [List.mapM_cons, h1]
      unfold Workshift.new
      rw [hl]; rfl
    · intro w hw
      rcases List.mem_cons.1 hw with hw | hw
      · subst hw; exact ⟨rfl, hl⟩
      · exact h3 w hw

theorem Workshift.new_ok_of_range {tb : Timeboard L} (hv : tb.Valid) (sch : Option (Schedule L)) {k : Int}
    (h0 : 0 ≤ k) (h1 : k < tb.timeline.len) :
    ∃ l, tb.timeline.label k = .ok l ∧ Workshift.new tb k sch = .ok { loc := k, label := l, schedule := tb.effective sch } := by
  obtain ⟨l, hl⟩ := hv.wf.label_ok h0 h1
  exact ⟨l, hl, by unfold Workshift.new; rw [hl]; rfl⟩

theorem Interval.Proper.count_eq {v : Interval L} {tb : Timeboard L} (hp : v.Proper tb) (hv : tb.Valid)
    {sch : Option (Schedule L)} (ho : tb.Owns (sch.getD v.schedule)) {duty : Duty} (hd : duty = .on ∨ duty = .off ∨ duty = .any) :
    v.count tb duty sch = .ok ((tb.dutyPositions (sch.getD v.schedule).selector duty v.lo v.hi).length : Int) := by
  unfold Interval.count
  rw [hp.not_void]
  simp only [Bool.false_eq_true, if_false]
  rcases hp.dutyIdx_spec hv ho hd with ⟨idx, h1, h2⟩ | ⟨idx, a, b, h1, h2, h3, h4, h5⟩
  · rw [h1, h2]; rfl
  · rw [h1, ← h5, length_slice h2 h3 h4]

theorem Interval.Proper.workshifts_eq {v : Interval L} {tb : Timeboard L} (hp : v.Proper tb) (hv : tb.Valid)
    {sch : Option (Schedule L)} (ho : tb.Owns (sch.getD v.schedule)) {duty : Duty} (hd : duty = .on ∨ duty = .off ∨ duty = .any) :
    v.workshifts tb duty sch = (tb.dutyPositions (sch.getD v.schedule).selector duty v.lo v.hi).mapM
      (fun i => Workshift.new tb i (some (sch.getD v.schedule))) := by
  unfold Interval.workshifts
  rw [hp.not_void]
  simp only [Bool.false_eq_true, if_false]
  rcases hp.dutyIdx_spec hv ho hd with ⟨idx, h1, h2⟩ | ⟨idx, a, b, h1, h2, h3, h4, h5⟩
  · rw [h1, h2]; rfl
  · rw [h1, ← h5]

theorem Interval.Proper.totalDuration_eq {v : Interval L} {tb : Timeboard L} (hp : v.Proper tb) (hv : tb.Valid)
    {sch : Option (Schedule L)} (ho : tb.Owns (sch.getD v.schedule)) {duty : Duty} (hd : duty = .on ∨ duty = .off ∨ duty = .any) :
    v.totalDuration tb duty sch = .ok ((tb.dutyPositions (sch.getD v.schedule).selector duty v.lo v.hi).map
      (fun k => tb.timeline.bnd (k + 1) - tb.timeline.bnd k)).sum := by
  have h0 := hp.lo_nonneg
  have hlt := hp.hi_lt
  unfold Interval.totalDuration
  rw [hp.not_void]
  simp only [Bool.false_eq_true, if_false]
  rcases hp.dutyIdx_spec hv ho hd with ⟨idx, h1, h2⟩ | ⟨idx, a, b, h1, h2, h3, h4, h5⟩
  · rw [h1, h2]; rfl
  · rw [h1]
    simp only
    rw [h5, hv.wf.durationsFor_eq]
    intro k hk
    have := Timeboard.mem_dutyPositions.1 hk
    omega

theorem Interval.Proper.nth_eq {v : Interval L} {tb : Timeboard L} (hp : v.Proper tb) (hv : tb.Valid)
    {sch : Option (Schedule L)} (ho : tb.Owns (sch.getD v.schedule)) {duty : Duty} (hd : duty = .on ∨ duty = .off ∨ duty = .any)
    (n : Int) :
    v.nth tb n duty sch =
      match pyGet? (tb.dutyPositions (sch.getD v.schedule).selector duty v.lo v.hi) n with
      | none => .error .outOfBounds
      | some k => Workshift.new tb k (some (sch.getD v.schedule)) := by
  unfold Interval.nth
  rw [hp.not_void]
  simp only [Bool.false_eq_true, if_false]
  rcases hp.dutyIdx_spec hv ho hd with ⟨idx, h1, h2⟩ | ⟨idx, a, b, h1, h2, h3, h4, h5⟩
  · rw [h1, h2]
    simp only
    have : pyGet? ([] : List Int) n = none := by
      unfold pyGet?; split <;> simp
    rw [this]
  · rw [h1]
    simp only
    have hlen := length_slice h2 h3 h4
    rw [← h5]
    by_cases hn : n ≥ 0
    · rw [if_pos hn]
      by_cases hb : a + n > b
      · rw [if_pos (by omega), pyGet?_ge _ (by omega)]
      · rw [if_neg (by omega), pyGet?_lt _ hn (by omega)]
        obtain ⟨hh, e⟩ := getElem_slice (idx := idx) (a := a) (b := b) n.toNat (by omega)
        unfold workshiftAt
        rw [pyGet?_lt _ (by omega) (by omega), e]
        simp only
        congr 2
        omega
    · rw [if_neg hn]
      by_cases hb : b + n + 1 < a
      · rw [if_pos (by omega), pyGet?_low _ (by omega)]
      · rw [if_neg (by omega), pyGet?_neg _ (by omega) (by omega)]
        obtain ⟨hh, e⟩ := getElem_slice (idx := idx) (a := a) (b := b) (n + (slice idx a b).length).toNat (by omega)
        unfold workshiftAt
        rw [pyGet?_lt _ (by omega) (by omega), e]
        simp only
        congr 2
        omega

theorem Workshift.new_loc {tb : Timeboard L} {k : Int} {sch : Option (Schedule L)} {w : Workshift L}
    (h : Workshift.new tb k sch = .ok w) : w.loc = k := by
  unfold Workshift.new at h
  split at h
  · simp at h
  · simp at h; subst h; rfl

theorem Workshift.new_schedule {tb : Timeboard L} {k : Int} {sch : Option (Schedule L)} {w : Workshift L}
    (h : Workshift.new tb k sch = .ok w) : w.schedule = tb.effective sch := by
  unfold Workshift.new at h
  split at h
  · simp at h
  · simp at h; subst h; rfl

theorem Workshift.new_label {tb : Timeboard L} {k : Int} {sch : Option (Schedule L)} {w : Workshift L}
    (h : Workshift.new tb k sch = .ok w) : tb.timeline.label k = .ok w.label := by
  unfold Workshift.new at h
  split at h
  · simp at h
  · rename_i l hl; simp at h; subst h; exact hl

theorem Timeboard.Valid.locate_none {tb : Timeboard L} (hv : tb.Valid) (t : Time) :
    (∃ k, tb.timeline.wsPosition t = .ok k ∧ tb.locate t = .ok { pos := some k, side := 0 }) ∨
    (t < tb.startTime ∧ tb.locate t = .ok { pos := none, side := -1 }) ∨
    (tb.endTime < t ∧ tb.locate t = .ok { pos := none, side := 1 }) := by
  have wf := hv.wf
  unfold Timeboard.locate
  simp only
  cases hp : tb.timeline.wsPosition t with
  | ok k =>
    left
    have := (wf.wsPosition_ok_iff t k).1 hp
    have hk : ¬ k < 0 := by omega
    refine ⟨k, rfl, ?_⟩
    simp only [hk, if_false]
  | error e =>
    obtain ⟨rfl, h⟩ := (wf.wsPosition_error_iff t e).1 hp
    have hse : tb.timeline.frame.startTime ≤ tb.timeline.frame.endTime := by
      unfold Frame.startTime Frame.endTime
      have h1 := tb.timeline.frame.unitStart_le_unitEnd ((tb.timeline.frame.n : Int) - 1)
      have h2 := wf.npos
      have h3 := (Frame.unitStart_le_iff (f := tb.timeline.frame) (i := 0) (j := (tb.timeline.frame.n : Int) - 1)).2 (by omega)
      omega
    right
    simp only
    by_cases hs : t < tb.startTime
    · left; exact ⟨hs, by rw [if_pos hs]⟩
    · right
      have he : tb.endTime < t := by
        unfold Timeboard.startTime at hs; unfold Timeboard.endTime
        omega
      exact ⟨he, by rw [if_neg hs, if_pos he]⟩

/-- Everything about the workshift number `k`. -/
theorem Workshift.exists_of_range {tb : Timeboard L} (hv : tb.Valid) (sch : Option (Schedule L)) {k : Int}
    (h0 : 0 ≤ k) (h1 : k < tb.timeline.len) :
    ∃ w, Workshift.new tb k sch = .ok w ∧ w.loc = k ∧ w.schedule = tb.effective sch ∧
      tb.timeline.label k = .ok w.label ∧
      w.startTime tb = .ok (tb.timeline.frame.unitStart (tb.timeline.bnd k)) ∧
      w.endTime tb = .ok (tb.timeline.frame.unitStart (tb.timeline.bnd (k + 1)) - 1) ∧
      w.toTimestamp tb = .ok (tb.timeline.refTime k) ∧
      w.duration tb = .ok (tb.timeline.bnd (k + 1) - tb.timeline.bnd k) := by
  obtain ⟨l, hl, hw⟩ := Workshift.new_ok_of_range hv sch h0 h1
  exact ⟨_, hw, rfl, rfl, hl, hv.wf.wsStart_eq h0 h1, hv.wf.wsEnd_eq h0 h1, hv.wf.wsRef_eq h0 h1, hv.wf.wsDuration_eq h0 h1⟩

theorem Workshift.ext_new {tb : Timeboard L} {k : Int} {sch : Option (Schedule L)} {w w' : Workshift L}
    (h : Workshift.new tb k sch = .ok w) (h' : Workshift.new tb k sch = .ok w') : w = w' := by
  rw [h] at h'; cases h'; rfl

theorem Timeboard.Valid.getWorkshift_of_within {tb : Timeboard L} (hv : tb.Valid) {sch : Option (Schedule L)} {t : Time} {k : Int}
    (h : tb.timeline.wsPosition t = .ok k) : tb.getWorkshift t sch = Workshift.new tb k sch := by
  have := (hv.wf.wsPosition_ok_iff t k).1 h
  have hk : ¬ k < 0 := by omega
  unfold Timeboard.getWorkshift Timeboard.locate
  simp only [h, hk, if_false]

end TB
