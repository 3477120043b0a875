import Verif.Lemmas.Duty
import Verif.Examples.Boards
/-! Properties C15, C16, C17, C18, C26: duties, counting, iteration. -/
namespace TB
open TB.Ex
variable {L : Type}

/-- **C15.** Under a schedule of the timeboard a workshift is on duty iff the selector accepts its label, off duty iff not;
the two indices of the schedule are the ascending lists of the positions on / off duty, every position is in exactly
one of them. -/
theorem C15_on_off_partition {tb : Timeboard L} (h : tb.Reachable) {s : Schedule L} (hs : tb.Owns s) :
    (∀ k w, 0 ≤ k → k < tb.timeline.len → Workshift.new tb k (some s) = .ok w →
      w.isOnDuty tb = .ok (s.selector w.label) ∧ w.isOffDuty tb = .ok (!s.selector w.label)) ∧
    s.onIdx.Pairwise (· < ·) ∧ s.offIdx.Pairwise (· < ·) ∧
    (∀ k, k ∈ s.onIdx ↔ tb.DutyAt s .on k) ∧ (∀ k, k ∈ s.offIdx ↔ tb.DutyAt s .off k) ∧
    (∀ k, 0 ≤ k → k < tb.timeline.len → ((k ∈ s.onIdx ∧ k ∉ s.offIdx) ∨ (k ∉ s.onIdx ∧ k ∈ s.offIdx))) := by
  have hv := h.valid
  have hon := hv.onIdx_eq hs
  have hoff := hv.offIdx_eq hs
  have h1 : ∀ k, k ∈ s.onIdx ↔ tb.DutyAt s .on k := by
    intro k
    rw [hon, hv.mem_dutyPositions_iff (by omega) (by omega)]
    constructor
    · intro h; exact h.2.2
    · intro h; exact ⟨h.1, by have := h.2.1; omega, h⟩
  have h2 : ∀ k, k ∈ s.offIdx ↔ tb.DutyAt s .off k := by
    intro k
    rw [hoff, hv.mem_dutyPositions_iff (by omega) (by omega)]
    constructor
    · intro h; exact h.2.2
    · intro h; exact ⟨h.1, by have := h.2.1; omega, h⟩
  refine ⟨?_, ?_, ?_, h1, h2, ?_⟩
  · intro k w _ _ hw
    have hl := Workshift.new_label hw
    have hloc := Workshift.new_loc hw
    have hsc := Workshift.new_schedule hw
    rw [← hloc] at hl
    rw [Workshift.isOnDuty_eq hl, Workshift.isOffDuty_eq hl]
    simp only [Option.getD_none, hsc]
    exact ⟨rfl, rfl⟩
  · rw [hon]; exact tb.pairwise_dutyPositions _ _ _ _
  · rw [hoff]; exact tb.pairwise_dutyPositions _ _ _ _
  · intro k hk0 hk1
    rw [h1, h2, hv.dutyAt_iff, hv.dutyAt_iff]
    obtain ⟨l, hl⟩ := hv.wf.label_ok hk0 hk1
    cases hsel : s.selector l with
    | true => left; refine ⟨⟨hk0, hk1, l, hl, hsel⟩, ?_⟩
              rintro ⟨_, _, l', hl', hd⟩
              rw [hl] at hl'; cases hl'
              simp [dutyMatches, hsel] at hd
    | false => right; refine ⟨?_, ⟨hk0, hk1, l, hl, by simp [dutyMatches, hsel]⟩⟩
               rintro ⟨_, _, l', hl', hd⟩
               rw [hl] at hl'; cases hl'
               simp [dutyMatches, hsel] at hd

/-- Every schedule kept by a timeboard is one of its own, as `C15` demands. -/
theorem C15_schedules_owned {tb : Timeboard L} (h : tb.Reachable) :
    tb.Owns tb.defaultSchedule ∧ (∀ p ∈ tb.schedules, tb.Owns p.2) ∧
    (∀ name sel s tb', tb.addSchedule name sel = .ok (s, tb') → tb'.Owns s ∧ tb.Owns s) := by
  refine ⟨h.valid.default_owned, fun p hp => (h.valid.owned p hp).1, ?_⟩
  intro name sel s tb' ha
  unfold Timeboard.addSchedule at ha
  split at ha
  · cases ha
  · simp only [Except.ok.injEq, Prod.mk.injEq] at ha
    obtain ⟨rfl, rfl⟩ := ha
    exact ⟨rfl, rfl⟩

/-- The long days of the example. -/
def longDays : Schedule Int := Schedule.new week.timeline "long" (fun l => decide (7 < l))
theorem longDays_owned : week.Owns longDays := rfl
example : longDays.onIdx = [2, 3, 4, 5, 8, 9, 10, 11, 12, 15, 16, 17, 18, 19, 22, 23, 24, 25, 26, 29, 30] ∧
    longDays.offIdx = [0, 1, 6, 7, 13, 14, 20, 21, 27, 28] ∧
    week.defaultSchedule.onIdx = [2, 3, 4, 5, 7, 8, 9, 10, 11, 12, 15, 16, 17, 18, 19, 22, 23, 24, 25, 26, 29, 30] := by
  decide +kernel

/-- **C16.** Counts by duty: `count(d)` is the number of the positions of the interval having the duty, `count('any')` is
the length, the counts on and off duty add up to it. -/
theorem C16_counts_add_up {tb : Timeboard L} (h : tb.Reachable) {a b : Int} {s0 s1 : Option (Schedule L)} {v : Interval L}
    (hv : Interval.new tb (a, b) s0 = .ok v) (h0 : tb.OwnsOpt s0) (h1 : tb.OwnsOpt s1) :
    (∀ d, d = .on ∨ d = .off ∨ d = .any → ∃ ks : List Int, ks.Pairwise (· < ·) ∧
      (∀ k, k ∈ ks ↔ (a ≤ k ∧ k ≤ b ∧ tb.DutyAt (s1.getD v.schedule) d k)) ∧ v.count tb d s1 = .ok (ks.length : Int)) ∧
    (∃ x y, v.count tb .on s1 = .ok x ∧ v.count tb .off s1 = .ok y ∧ v.count tb .any s1 = .ok (x + y) ∧ x + y = v.len) := by
  have hvd := h.valid
  have ho := hvd.owns_getD hv h0 h1
  have hp := Interval.new_proper hv
  obtain ⟨g1, g2, g3, e⟩ := Interval.new_ok_iff.1 hv
  have ea : v.lo = a := by rw [e]
  have eb : v.hi = b := by rw [e]
  constructor
  · intro d hd
    refine ⟨_, tb.pairwise_dutyPositions _ _ _ _, ?_, hp.count_eq hvd ho hd⟩
    intro k
    rw [ea, eb, hvd.mem_dutyPositions_iff g1 g3]
  · refine ⟨_, _, hp.count_eq hvd ho (.inl rfl), hp.count_eq hvd ho (.inr (.inl rfl)), ?_⟩
    obtain ⟨p, e1, e2⟩ := hvd.dutyPositions_on_off (s1.getD v.schedule).selector (lo := v.lo) (hi := v.hi) (by omega) (by omega)
    have hs := length_filter_partition p (intRange v.lo (v.hi + 1))
    rw [hp.count_eq hvd ho (.inr (.inr rfl)), hvd.dutyPositions_any _ (by omega) (by omega), e1, e2]
    rw [length_intRange] at hs ⊢
    unfold Interval.len
    rw [hp.length_eq]
    constructor
    · congr 1; omega
    · omega

example : ((Interval.new week (0, 9)).bind (fun v => v.count week .on (some longDays))) = .ok 6 ∧
    ((Interval.new week (0, 9)).bind (fun v => v.count week .off (some longDays))) = .ok 4 ∧
    ((Interval.new week (0, 9)).bind (fun v => v.count week .on)) = .ok 7 := by decide +kernel

/-- **C17.** Iteration: the workshifts with the duty in ascending order, as many as counted; iterating over the interval
itself gives all its workshifts; any other value of `duty` is ValueError. -/
theorem C17_iteration {tb : Timeboard L} (h : tb.Reachable) {a b : Int} {s0 s1 : Option (Schedule L)} {v : Interval L}
    (hv : Interval.new tb (a, b) s0 = .ok v) (h0 : tb.OwnsOpt s0) (h1 : tb.OwnsOpt s1) :
    (∀ d, d = .on ∨ d = .off ∨ d = .any → ∃ ws, v.workshifts tb d s1 = .ok ws ∧
      tb.ListsDuty (s1.getD v.schedule) d a b ws ∧ v.count tb d s1 = .ok (ws.length : Int)) ∧
    (∃ ws, v.iter tb = .ok ws ∧ ws.map (fun w => w.loc) = intRange a (b + 1)) ∧
    (∀ d, ¬ (d = .on ∨ d = .off ∨ d = .any) → v.workshifts tb d s1 = .error .valueError ∧ v.count tb d s1 = .error .valueError) := by
  have hvd := h.valid
  have ho := hvd.owns_getD hv h0 h1
  have hp := Interval.new_proper hv
  obtain ⟨g1, g2, g3, e⟩ := Interval.new_ok_iff.1 hv
  have ea : v.lo = a := by rw [e]
  have eb : v.hi = b := by rw [e]
  refine ⟨?_, ?_, ?_⟩
  · intro d hd
    obtain ⟨ws, h2, h3, h4, h5⟩ := hp.workshifts_spec hvd ho hd
    rw [ea, eb] at h5
    refine ⟨ws, h2, h5, ?_⟩
    rw [hp.count_eq hvd ho hd, ← h3, List.length_map]
  · obtain ⟨ws, h2, h3, h4, h5⟩ := hp.workshifts_spec hvd (sch := none) (hvd.owns_getD hv h0 (s1 := none) (by intro x hx; cases hx)) (duty := .any) (.inr (.inr rfl))
    refine ⟨ws, h2, ?_⟩
    rw [h3, hvd.dutyPositions_any _ (by omega) (by omega), ea, eb]
  · intro d hd
    unfold Interval.workshifts Interval.count
    simp only [hp.not_void, Bool.false_eq_true, if_false]
    rw [Interval.dutyIdx_bad hd]
    exact ⟨rfl, rfl⟩

example : ((Interval.new week (0, 9)).bind (fun v => v.workshifts week .on (some longDays))).map (List.map (fun w => (w.loc, w.label)))
    = .ok [(2, 8), (3, 8), (4, 8), (5, 8), (8, 8), (9, 8)] := by decide +kernel

theorem pyGet?_mapM_new {tb : Timeboard L} (s : Schedule L) : ∀ (ks : List Int) (ws : List (Workshift L)),
    ks.mapM (fun i => Workshift.new tb i (some s)) = .ok ws → ∀ n : Int,
      (match pyGet? ks n with
        | none => (.error .outOfBounds : Except Err (Workshift L))
        | some k => Workshift.new tb k (some s)) =
      (match pyGet? ws n with
        | none => .error .outOfBounds
        | some w => .ok w) := by
  intro ks
  have key : ∀ (ks : List Int) (ws : List (Workshift L)), ks.mapM (fun i => Workshift.new tb i (some s)) = .ok ws →
      ks.length = ws.length ∧ ∀ (i : Nat) (h : i < ks.length) (h' : i < ws.length), Workshift.new tb ks[i] (some s) = .ok ws[i] := by
    intro ks
    induction ks with
    | nil => intro ws h; cases h; simp
    | cons k ks ih =>
      intro ws h
      rw [List.mapM_cons] at h
      simp only [Bind.bind, Except.bind] at h
      split at h
      · cases h
      · rename_i w hw
        split at h
        · cases h
        · rename_i ws' hws
          cases h
          obtain ⟨h1, h2⟩ := ih ws' hws
          refine ⟨by simp [h1], ?_⟩
          intro i hi hi'
          cases i with
          | zero => simpa using hw
          | succ i => simpa using h2 i (by simpa using hi) (by simpa using hi')
  intro ws h n
  obtain ⟨h1, h2⟩ := key ks ws h
  by_cases hn : 0 ≤ n
  · by_cases hb : n < ks.length
    · rw [pyGet?_lt _ hn hb, pyGet?_lt _ hn (by omega)]
      exact h2 _ _ _
    · rw [pyGet?_ge _ (by omega), pyGet?_ge _ (by omega)]
  · by_cases hb : 0 ≤ n + ks.length
    · rw [pyGet?_neg _ (by omega) hb, pyGet?_neg _ (by omega) (by omega)]
      simp only [h1]
      exact h2 _ _ _
    · rw [pyGet?_low _ (by omega), pyGet?_low _ (by omega)]

/-- **C18.** `nth(n)` is the Python-style `n`-th element of the list of workshifts with the duty, OutOfBoundsError when there
is no such element; `first` and `last` are elements `0` and `-1`. -/
theorem C18_nth_first_last {tb : Timeboard L} (h : tb.Reachable) {a b : Int} {s0 s1 : Option (Schedule L)} {v : Interval L}
    (hv : Interval.new tb (a, b) s0 = .ok v) (h0 : tb.OwnsOpt s0) (h1 : tb.OwnsOpt s1) (d : Duty)
    (hd : d = .on ∨ d = .off ∨ d = .any) :
    ∃ ws, v.workshifts tb d s1 = .ok ws ∧
      (∀ n : Int, 0 ≤ n → n < ws.length → ∃ w, ws[n.toNat]? = some w ∧ v.nth tb n d s1 = .ok w) ∧
      (∀ n : Int, n < 0 → 0 ≤ n + ws.length → ∃ w, ws[(n + ws.length).toNat]? = some w ∧ v.nth tb n d s1 = .ok w) ∧
      (∀ n : Int, (ws.length : Int) ≤ n ∨ n < -(ws.length : Int) → v.nth tb n d s1 = .error .outOfBounds) ∧
      (v.first tb d s1 = match ws.head? with | some w => .ok w | none => .error .outOfBounds) ∧
      (v.last tb d s1 = match ws.getLast? with | some w => .ok w | none => .error .outOfBounds) := by
  have hvd := h.valid
  have ho := hvd.owns_getD hv h0 h1
  have hp := Interval.new_proper hv
  obtain ⟨ws, h2, _, _, _⟩ := hp.workshifts_spec hvd ho hd
  have h3 := h2
  rw [hp.workshifts_eq hvd ho hd] at h3
  have key : ∀ n, v.nth tb n d s1 = match pyGet? ws n with
        | none => .error .outOfBounds
        | some w => .ok w := by
    intro n
    rw [hp.nth_eq hvd ho hd n]
    exact pyGet?_mapM_new _ _ _ h3 n
  refine ⟨ws, h2, ?_, ?_, ?_, ?_, ?_⟩
  · intro n hn hn'
    refine ⟨_, List.getElem?_eq_getElem (by omega), ?_⟩
    rw [key, pyGet?_lt _ hn hn']
  · intro n hn hn'
    refine ⟨_, List.getElem?_eq_getElem (by omega), ?_⟩
    rw [key, pyGet?_neg _ hn hn']
  · intro n hn
    rw [key]
    rcases hn with hn | hn
    · rw [pyGet?_ge _ hn]
    · rw [pyGet?_low _ (by omega)]
  · unfold Interval.first
    rw [key, pyGet?_nonneg _ (by omega)]
    cases ws <;> rfl
  · unfold Interval.last
    rw [key]
    cases ws with
    | nil => rfl
    | cons w ws =>
      rw [pyGet?_neg _ (by omega) (by simp only [List.length_cons]; omega), List.getLast?_eq_getElem?]
      rw [List.getElem?_eq_getElem (by simp only [List.length_cons]; omega)]
      have : (-1 + ((w :: ws).length : Int)).toNat = (w :: ws).length - 1 := by omega
      simp only [this]

example : ((Interval.new week (0, 9)).bind (fun v => v.nth week (-2) .on (some longDays))).map (fun w => w.loc) = .ok 8 ∧
    ((Interval.new week (0, 9)).bind (fun v => v.nth week 6 .on (some longDays))).map (fun w => w.loc) = .error .outOfBounds ∧
    ((Interval.new week (0, 1)).bind (fun v => v.first week .on)).map (fun w => w.loc) = .error .outOfBounds := by decide +kernel

theorem mapM_duration {tb : Timeboard L} (hv : tb.Valid) : ∀ ws : List (Workshift L),
    (∀ w ∈ ws, 0 ≤ w.loc ∧ w.loc < tb.timeline.len) →
    ws.mapM (fun w => w.duration tb) = .ok ((ws.map (fun w => w.loc)).map (fun k => tb.timeline.bnd (k + 1) - tb.timeline.bnd k)) := by
  intro ws
  induction ws with
  | nil => intro _; rfl
  | cons w ws ih =>
    intro hk
    have h1 := hk w (by simp)
    rw [List.mapM_cons, ih (fun x hx => hk x (by simp [hx]))]
    unfold Workshift.duration
    rw [hv.wf.wsDuration_eq h1.1 h1.2]
    rfl

theorem sum_bnd_range {tl : Timeline L} (lo : Int) (n : Nat) :
    ((intRange lo (lo + n)).map (fun k => tl.bnd (k + 1) - tl.bnd k)).sum = tl.bnd (lo + n) - tl.bnd lo := by
  induction n generalizing lo with
  | zero =>
    have : lo + ((0 : Nat) : Int) = lo := by omega
    rw [this, intRange_empty (Int.le_refl _)]; simp
  | succ n ih =>
    rw [intRange_cons (by omega)]
    simp only [List.map_cons, List.sum_cons]
    have e : lo + ((n + 1 : Nat) : Int) = (lo + 1) + (n : Int) := by omega
    rw [e, ih (lo + 1)]
    omega

/-- **C26.** `total_duration(duty)` is the sum of durations of the workshifts with the duty; the totals on and off duty add
up to the total for 'any', which is the number of base units from the one starting at the interval's start time to
the one ending at its end time. -/
theorem C26_total_duration {tb : Timeboard L} (h : tb.Reachable) {a b : Int} {s0 s1 : Option (Schedule L)} {v : Interval L}
    (hv : Interval.new tb (a, b) s0 = .ok v) (h0 : tb.OwnsOpt s0) (h1 : tb.OwnsOpt s1) :
    (∀ d, d = .on ∨ d = .off ∨ d = .any → ∃ ws ds, v.workshifts tb d s1 = .ok ws ∧
      ws.mapM (fun w => w.duration tb) = .ok ds ∧ v.totalDuration tb d s1 = .ok ds.sum) ∧
    (∃ x y, v.totalDuration tb .on s1 = .ok x ∧ v.totalDuration tb .off s1 = .ok y ∧ v.totalDuration tb .any s1 = .ok (x + y)) ∧
    (∃ i j, v.startTime tb = .ok (some (tb.timeline.frame.unitStart i)) ∧ v.endTime tb = .ok (some (tb.timeline.frame.unitEnd j)) ∧
      v.totalDuration tb .any s1 = .ok (j - i + 1)) := by
  have hvd := h.valid
  have ho := hvd.owns_getD hv h0 h1
  have hp := Interval.new_proper hv
  have hlt := hp.hi_lt
  have hge := hp.lo_nonneg
  have hle := hp.lo_le_hi
  have hany : v.totalDuration tb .any s1 = .ok (tb.timeline.bnd (v.hi + 1) - tb.timeline.bnd v.lo) := by
    rw [hp.totalDuration_eq hvd ho (.inr (.inr rfl)), hvd.dutyPositions_any _ hge hlt]
    have := sum_bnd_range (tl := tb.timeline) v.lo (v.hi + 1 - v.lo).toNat
    have e : v.lo + ((v.hi + 1 - v.lo).toNat : Int) = v.hi + 1 := by omega
    rw [e] at this
    rw [this]
  refine ⟨?_, ?_, ?_⟩
  · intro d hd
    obtain ⟨ws, h2, h3, h4, h5⟩ := hp.workshifts_spec hvd ho hd
    refine ⟨ws, _, h2, mapM_duration hvd ws ?_, ?_⟩
    · intro w hw
      have : w.loc ∈ ws.map (fun w => w.loc) := List.mem_map.2 ⟨w, hw, rfl⟩
      rw [h3] at this
      have := Timeboard.mem_dutyPositions.1 this
      omega
    · rw [h3, hp.totalDuration_eq hvd ho hd]
  · refine ⟨_, _, hp.totalDuration_eq hvd ho (.inl rfl), hp.totalDuration_eq hvd ho (.inr (.inl rfl)), ?_⟩
    obtain ⟨p, e1, e2⟩ := hvd.dutyPositions_on_off (s1.getD v.schedule).selector (lo := v.lo) (hi := v.hi) hge hlt
    rw [hp.totalDuration_eq hvd ho (.inr (.inr rfl)), hvd.dutyPositions_any _ hge hlt, e1, e2, sum_filter_partition]
  · refine ⟨tb.timeline.bnd v.lo, tb.timeline.bnd (v.hi + 1) - 1, ?_, ?_, ?_⟩
    · unfold Interval.startTime
      rw [hp.not_void, hvd.wf.wsStart_eq hge (by omega)]; rfl
    · unfold Interval.endTime
      rw [hp.not_void, hvd.wf.wsEnd_eq (by omega) hlt, Frame.unitEnd_eq]
      have : tb.timeline.bnd (v.hi + 1) - 1 + 1 = tb.timeline.bnd (v.hi + 1) := by omega
      rw [this]; rfl
    · rw [hany]; congr 1; omega

example : ((Interval.new shifts (1, 3)).bind (fun v => v.totalDuration shifts .on)) = .ok 24 ∧
    ((Interval.new shifts (1, 3)).bind (fun v => v.totalDuration shifts .off)) = .ok 14 ∧
    ((Interval.new shifts (1, 3)).bind (fun v => v.totalDuration shifts .any)) = .ok 38 := by decide +kernel

end TB
