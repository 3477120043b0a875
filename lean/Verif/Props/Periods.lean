import Verif.Props.GetInterval
/-! Properties C71 and C72: the intervals of consecutive calendar periods; what an interval covers. -/
namespace TB
open TB.Ex
variable {L : Type}

/-- What `get_interval` makes of a calendar period, with clipping. -/
theorem getInterval_period_cases {tb : Timeboard L} (h : tb.Reachable) {sch : Option (Schedule L)} (hs : tb.OwnsOpt sch) (p : Period) :
    ((∃ k, tb.RefIn p k) → tb.Yields sch (tb.getInterval (some (.period p)) none none true "11" sch) (fun k => tb.RefIn p k)) ∧
    ((∀ k, ¬ tb.RefIn p k) → tb.getInterval (some (.period p)) none none true "11" sch = .error .voidInterval ∨
      tb.getInterval (some (.period p)) none none true "11" sch = .error .outOfBounds) := by
  have hp : PeriodRef (.period p) none p := .inl ⟨rfl, rfl⟩
  by_cases hin : tb.Within p.startTime ∧ tb.Within p.endTime
  · have := C34_by_period h hs true hp hin.1 hin.2
    exact ⟨this.1, fun hk => .inl (this.2 hk)⟩
  · have := C35_clipping h hs hp hin
    exact ⟨fun hk => (this.1 hk).1, fun hk => .inr (this.2 hk true "11" closedOk_11)⟩

/-- **C71.** Cut the calendar into consecutive periods of a frequency, beginning anywhere: `o, o + m, o + 2m, ...` in both
directions where `m` is the multiplier.  Every workshift of the timeboard belongs to the interval of exactly one of
these periods; the intervals of earlier periods are before those of later ones; for the remaining periods `get_interval` raises
VoidIntervalError or OutOfBoundsError. -/
theorem C71_periods_partition {tb : Timeboard L} (h : tb.Reachable) {sch : Option (Schedule L)} (hs : tb.OwnsOpt sch) (f : Freq) (o : Int) :
    let call := fun i : Int => tb.getInterval (some (.period ⟨f, o + f.mult * i⟩)) none none true "11" sch
    (∀ k, 0 ≤ k → k < tb.timeline.len → ∃ i v, call i = .ok v ∧ v.Contains tb k ∧
      ∀ i' v', call i' = .ok v' → v'.Contains tb k → i' = i) ∧
    (∀ i j v u k l, i < j → call i = .ok v → call j = .ok u → v.Contains tb k → u.Contains tb l → k < l) ∧
    (∀ i, (∃ v, call i = .ok v ∧ v.schedule = tb.effective sch ∧ ∃ k, v.Contains tb k) ∨ call i = .error .voidInterval ∨ call i = .error .outOfBounds) := by
  intro call
  have hv := h.valid
  have hm := f.mult_pos
  have hcall : ∀ i v, call i = .ok v → ∀ k, v.Contains tb k ↔ tb.RefIn ⟨f, o + f.mult * i⟩ k := by
    intro i v hi
    by_cases hk : ∃ k, tb.RefIn ⟨f, o + f.mult * i⟩ k
    · obtain ⟨v', e, _, _, _, hc⟩ := (getInterval_period_cases h hs ⟨f, o + f.mult * i⟩).1 hk
      cases e.symm.trans hi
      exact hc
    · rcases (getInterval_period_cases h hs ⟨f, o + f.mult * i⟩).2 (fun k hk' => hk ⟨k, hk'⟩) with e | e
      · cases e.symm.trans hi
      · cases e.symm.trans hi
  have href : ∀ i k, tb.RefIn ⟨f, o + f.mult * i⟩ k ↔ (0 ≤ k ∧ k < tb.timeline.len ∧ i = (f.base.ordOf (tb.timeline.refTime k) - o) / f.mult) := by
    intro i k
    rw [hv.refIn_iff]
    unfold Period.startTime Period.endTime
    simp only
    have e1 := f.base.startOf_le_iff (o + f.mult * i) (tb.timeline.refTime k)
    have e2 := f.base.lt_startOf_iff (o + f.mult * i + f.mult) (tb.timeline.refTime k)
    have e3 : (i = (f.base.ordOf (tb.timeline.refTime k) - o) / (f.mult : Int)) ↔
        (f.mult * i ≤ f.base.ordOf (tb.timeline.refTime k) - o ∧ f.base.ordOf (tb.timeline.refTime k) - o < f.mult * i + f.mult) := by
      generalize f.base.ordOf (tb.timeline.refTime k) - o = x
      have hm' : (0 : Int) < f.mult := by omega
      constructor
      · rintro rfl
        have a1 := Int.mul_ediv_self_le (x := x) (k := (f.mult : Int)) (by omega)
        have a2 := Int.lt_mul_ediv_self_add (x := x) hm'
        omega
      · rintro ⟨a1, a2⟩
        symm
        rw [Int.ediv_eq_iff_of_pos hm']
        constructor
        · rw [Int.mul_comm]; exact a1
        · rw [Int.mul_comm i]; exact a2
    rw [e3]
    constructor
    · rintro ⟨a1, a2, a3, a4⟩
      have := e1.1 a3
      have := e2.1 (by omega)
      exact ⟨a1, a2, by omega, by omega⟩
    · rintro ⟨a1, a2, a3, a4⟩
      have := e1.2 (by omega)
      have := e2.2 (by omega)
      exact ⟨a1, a2, by omega, by omega⟩
  refine ⟨?_, ?_, ?_⟩
  · intro k h0 h1
    have hk := (href _ k).2 ⟨h0, h1, rfl⟩
    obtain ⟨v, e, _, _, _, hc⟩ := (getInterval_period_cases h hs _).1 ⟨k, hk⟩
    refine ⟨_, v, e, (hc k).2 hk, ?_⟩
    intro i' v' hi' hv'
    exact ((href i' k).1 ((hcall i' v' hi' k).1 hv')).2.2
  · intro i j v u k l hij hi hj hk hl
    obtain ⟨a1, a2, a3⟩ := (href i k).1 ((hcall i v hi k).1 hk)
    obtain ⟨b1, b2, b3⟩ := (href j l).1 ((hcall j u hj l).1 hl)
    rcases Int.lt_or_le k l with hlt | hle
    · exact hlt
    · exfalso
      have hr : tb.timeline.refTime l ≤ tb.timeline.refTime k := by
        rcases Int.lt_or_le l k with hc | hc
        · exact Int.le_of_lt (hv.wf.refTime_lt b1 hc a2)
        · have : l = k := by omega
          rw [this]; exact Int.le_refl _
      have := f.base.ordOf_mono hr
      have : (f.base.ordOf (tb.timeline.refTime l) - o) / (f.mult : Int) ≤ (f.base.ordOf (tb.timeline.refTime k) - o) / (f.mult : Int) :=
        Int.ediv_le_ediv (by omega) (by omega)
      omega
  · intro i
    by_cases hk : ∃ k, tb.RefIn ⟨f, o + f.mult * i⟩ k
    · obtain ⟨v, e, _, _, hsch, hc⟩ := (getInterval_period_cases h hs ⟨f, o + f.mult * i⟩).1 hk
      obtain ⟨k, hk⟩ := hk
      exact .inl ⟨v, e, hsch, k, (hc k).2 hk⟩
    · exact .inr ((getInterval_period_cases h hs ⟨f, o + f.mult * i⟩).2 (fun k hk' => hk ⟨k, hk'⟩))

/-- The weeks of the example from the one with 1 January 2017 on. -/
example : [0, 1, 2, 3, 4, 5, 6].map (fun i => showIvl (week.getInterval (some (.period ⟨fW, fW.base.ordOf (date 2017 1 1) + fW.mult * i⟩)))) =
    [.ok (0, 0, 1), .ok (1, 7, 7), .ok (8, 14, 7), .ok (15, 21, 7), .ok (22, 28, 7), .ok (29, 30, 2), .error .outOfBounds] := by
  decide +kernel

/-- **C72.** The interval between two points in time `a ≤ b` of the timeboard consists of exactly those workshifts which have a point
in common with the span from `a` to `b`; it starts at or before `a` and ends at or after `b`. -/
theorem C72_covers {tb : Timeboard L} (h : tb.Reachable) {sch : Option (Schedule L)} (hs : tb.OwnsOpt sch) (clip : Bool) {a b : Time}
    (ha : tb.Within a) (hb : tb.Within b) (hab : a ≤ b) :
    ∃ v, tb.getInterval (some (.pair (some a) (some b))) none none clip "11" sch = .ok v ∧ v.schedule = tb.effective sch ∧
      (∀ k, v.Contains tb k ↔ (0 ≤ k ∧ k < tb.timeline.len ∧ ∃ w x y, Workshift.new tb k = .ok w ∧ w.startTime tb = .ok x ∧
        w.endTime tb = .ok y ∧ x ≤ b ∧ a ≤ y)) ∧
      (∃ x y, v.startTime tb = .ok (some x) ∧ v.endTime tb = .ok (some y) ∧ x ≤ a ∧ b ≤ y) := by
  have hv := h.valid
  have wf := hv.wf
  obtain ⟨i, j, hi, hj, hy, _⟩ := C30_two_points h hs clip ha hb
  obtain ⟨i0, i1, i2, i3⟩ := (wf.wsPosition_ok_iff _ _).1 (hv.at_iff.1 hi)
  obtain ⟨j0, j1, j2, j3⟩ := (wf.wsPosition_ok_iff _ _).1 (hv.at_iff.1 hj)
  have mono : ∀ p q, 0 ≤ p → p ≤ q → q ≤ tb.timeline.len → tb.timeline.frame.unitStart (tb.timeline.bnd p) ≤ tb.timeline.frame.unitStart (tb.timeline.bnd q) :=
    fun p q h1 h2 h3 => Frame.unitStart_le_iff.2 (wf.bnd_le_bnd h1 h2 h3)
  have hij : i ≤ j := by
    rcases Int.lt_or_le j i with hc | hc
    · have := mono (j + 1) i (by omega) (by omega) (by omega)
      omega
    · exact hc
  obtain ⟨v, e, hI, hnv, hsch, hc⟩ := hy hij
  refine ⟨v, e, hsch, ?_, ?_⟩
  · intro k
    rw [hc]
    constructor
    · rintro ⟨k1, k2⟩
      obtain ⟨w, hw, _, _, _, hst, hen, _⟩ := Workshift.exists_of_range hv none (k := k) (by omega) (by omega)
      have m1 := mono k j (by omega) (by omega) (by omega)
      have m2 := mono (i + 1) (k + 1) (by omega) (by omega) (by omega)
      exact ⟨by omega, by omega, w, _, _, hw, hst, hen, by omega, by omega⟩
    · rintro ⟨k0, k1, w, x, y, hw, hst, hen, h1, h2⟩
      obtain ⟨w', hw', _, _, _, hst', hen', _⟩ := Workshift.exists_of_range hv none k0 k1
      cases Workshift.ext_new hw hw'
      rw [hst'] at hst; rw [hen'] at hen
      simp only [Except.ok.injEq] at hst hen
      constructor
      · rcases Int.lt_or_le k i with hk | hk
        · have := mono (k + 1) i (by omega) (by omega) (by omega)
          omega
        · exact hk
      · rcases Int.lt_or_le j k with hk | hk
        · have := mono (j + 1) k (by omega) (by omega) (by omega)
          omega
        · exact hk
  · have hf := hI.fine hv
    have hp : v.Proper tb := by
      rcases hf.shape with hp | hh
      · exact hp
      · rw [hh.void] at hnv; cases hnv
    have el : v.lo = i ∧ v.hi = j := by
      have a1 := (hc v.lo).1 ((hf.contains_iff hv _).2 ⟨Int.le_refl _, hp.lo_le_hi⟩)
      have a2 := (hc v.hi).1 ((hf.contains_iff hv _).2 ⟨hp.lo_le_hi, Int.le_refl _⟩)
      have a3 := (hf.contains_iff hv _).1 ((hc i).2 ⟨Int.le_refl _, hij⟩)
      have a4 := (hf.contains_iff hv _).1 ((hc j).2 ⟨hij, Int.le_refl _⟩)
      omega
    unfold Interval.startTime Interval.endTime
    simp only [hnv, Bool.false_eq_true, if_false, el.1, el.2]
    obtain ⟨w, hw, hl, _, _, hst, hen, _⟩ := Workshift.exists_of_range hv none i0 i1
    obtain ⟨w', hw', hl', _, _, hst', hen', _⟩ := Workshift.exists_of_range hv none j0 j1
    unfold Workshift.startTime at hst
    unfold Workshift.endTime at hen'
    rw [hl] at hst
    rw [hl'] at hen'
    rw [hst, hen']
    exact ⟨_, _, rfl, rfl, by omega, by omega⟩

example : shifts.Within (date 2017 10 31) ∧ shifts.Within (date 2017 11 1) ∧
    ((shifts.getInterval (some (.pair (some (date 2017 10 31)) (some (date 2017 11 1))))).bind (fun v => v.startTime shifts)) =
      .ok (some (date 2017 10 30 + 18 * nsHour)) ∧
    ((shifts.getInterval (some (.pair (some (date 2017 10 31)) (some (date 2017 11 1))))).bind (fun v => v.endTime shifts)) =
      .ok (some (date 2017 11 1 + 8 * nsHour - 1)) := by
  unfold Timeboard.Within; decide +kernel

end TB
