import Verif.Spec.Carry
import Verif.Props.GetInterval
import Verif.Props.Foreign
import Verif.Props.Periods
import Verif.Lemmas.Reference
import Verif.Examples.Boards
/-! Property C121: carrying workshifts and intervals over to another timeboard. -/
namespace TB
variable {L K : Type}

theorem Timeboard.Lasts.facts {tb : Timeboard L} {w : Workshift L} {a b : Time} (h : tb.Lasts w a b) (hv : tb.Valid) :
    0 ≤ w.loc ∧ w.loc < tb.timeline.len ∧ a = tb.timeline.frame.unitStart (tb.timeline.bnd w.loc) ∧
      b = tb.timeline.frame.unitStart (tb.timeline.bnd (w.loc + 1)) - 1 ∧ w.toTimestamp tb = .ok (tb.timeline.refTime w.loc) ∧
      a ≤ tb.timeline.refTime w.loc ∧ tb.timeline.refTime w.loc ≤ b := by
  obtain ⟨h0, ⟨s, hw⟩, ha, hb⟩ := h
  have h1 : w.loc < tb.timeline.len := by
    rcases Int.lt_or_le w.loc tb.timeline.len with h1 | h1
    · exact h1
    · exfalso
      unfold Workshift.new Timeline.label at hw
      rw [pyGet?_ge _ (by have := hv.wf.labels_len; unfold Timeline.len at h1; omega)] at hw
      cases hw
  obtain ⟨w', hw', _, _, _, hs, he, hr, _⟩ := Workshift.exists_of_range hv s h0 h1
  rw [hw] at hw'
  cases hw'
  rw [hs] at ha
  rw [he] at hb
  injection ha with ha
  injection hb with hb
  have := hv.wf.refTime_within h0 h1
  exact ⟨h0, h1, ha.symm, hb.symm, hr, by omega, by omega⟩

theorem Timeboard.Lasts.at {tb : Timeboard L} {w : Workshift L} {a b t : Time} (h : tb.Lasts w a b) (hv : tb.Valid) (h1 : a ≤ t) (h2 : t ≤ b) : tb.At t w.loc := by
  obtain ⟨h3, h4, h5, h6, _⟩ := h.facts hv
  rw [hv.at_iff, hv.wf.wsPosition_ok_iff]
  exact ⟨h3, h4, by omega, by omega⟩

/-- The workshift found at a point. -/
theorem Timeboard.Valid.getWorkshift_lasts {tb : Timeboard L} (hv : tb.Valid) {t : Time} {k : Int} (h : tb.At t k) (sch : Option (Schedule L)) :
    ∃ w a b, tb.getWorkshift t sch = .ok w ∧ Workshift.new tb k sch = .ok w ∧ w.loc = k ∧ w.schedule = tb.effective sch ∧ tb.Lasts w a b ∧ a ≤ t ∧ t ≤ b := by
  obtain ⟨w, hw, hl, hs, _, h1, h2, _, _⟩ := Workshift.exists_of_range hv sch h.1 h.2.1
  have hp := (hv.wf.wsPosition_ok_iff _ _).1 (hv.at_iff.1 h)
  refine ⟨w, _, _, ?_, hw, hl, hs, ⟨by rw [hl]; exact h.1, ⟨sch, by rw [hl]; exact hw⟩, h1, h2⟩, hp.2.2.1, by omega⟩
  unfold Timeboard.getWorkshift
  rw [hv.locate_at h]
  exact hw

/-- **C121.** `tb.get_workshift(ws)` for a workshift of another timeboard: it is the workshift which contains the point in time that stands for `ws` on its own
timeboard, i.e. its start or its end as `workshift_ref` of that timeboard says; OutOfBoundsError if this point is not on `tb`. -/
theorem C121_workshift {tb : Timeboard L} {src : Timeboard K} (h : tb.Reachable) (h' : src.Reachable) {w : Workshift K} {a b : Time} (hw : src.Lasts w a b)
    (sch : Option (Schedule L)) :
    ∃ t, t = (if src.timeline.refEnd then b else a) ∧
      (tb.Within t → ∃ x c d, tb.getWorkshiftOf src w sch = .ok x ∧ tb.Lasts x c d ∧ c ≤ t ∧ t ≤ d ∧ x.schedule = tb.effective sch ∧
        ∀ y c' d', tb.Lasts y c' d' → c' ≤ t → t ≤ d' → y.loc = x.loc) ∧
      (¬ tb.Within t → tb.getWorkshiftOf src w sch = .error .outOfBounds) := by
  have hv := h.valid
  obtain ⟨k0, k1, ka, kb, kr, _, _⟩ := hw.facts h'.valid
  refine ⟨src.timeline.refTime w.loc, ?_, ?_, ?_⟩
  · unfold Timeline.refTime
    rw [ka, kb]
  · intro hin
    obtain ⟨k, hk⟩ := hv.at_exists hin
    obtain ⟨x, c, d, e1, _, e2, e3, e4, e5, e6⟩ := hv.getWorkshift_lasts hk sch
    refine ⟨x, c, d, ?_, e4, e5, e6, e3, ?_⟩
    · unfold Timeboard.getWorkshiftOf
      rw [kr]
      exact e1
    · intro y c' d' hy y1 y2
      rw [e2]
      exact hv.at_unique (hy.at hv y1 y2) hk
  · intro hout
    unfold Timeboard.getWorkshiftOf
    rw [kr]
    exact (C02_get_workshift h _ sch).2 hout

theorem carried {tb : Timeboard L} {src : Timeboard K} (hv : tb.Valid) (hv' : src.Valid) {w : Workshift K} {a b : Time} (hw : src.Lasts w a b)
    {sch : Option (Schedule L)} {x : Workshift L} (hx : tb.getWorkshiftOf src w sch = .ok x) : tb.At (src.timeline.refTime w.loc) x.loc := by
  obtain ⟨_, _, _, _, kr, _, _⟩ := hw.facts hv'
  unfold Timeboard.getWorkshiftOf at hx
  rw [kr] at hx
  have hx : tb.getWorkshift (src.timeline.refTime w.loc) sch = .ok x := hx
  unfold Timeboard.getWorkshift at hx
  rcases hv.locate_none (src.timeline.refTime w.loc) with ⟨k, hk, hloc⟩ | ⟨_, h4⟩ | ⟨_, h4⟩
  · rw [hloc] at hx
    have hx : Workshift.new tb k sch = .ok x := hx
    rw [Workshift.new_loc hx]
    exact hv.at_iff.2 hk
  · rw [h4] at hx; cases hx
  · rw [h4] at hx; cases hx

/-- **C121**, a workshift which lies within a workshift of the other timeboard is carried over to that one, whatever `workshift_ref` of the two timeboards; in
particular, to the one which has the same start and end, if there is such. -/
theorem C121_within {tb : Timeboard L} {src : Timeboard K} (h : tb.Reachable) (h' : src.Reachable) {w : Workshift K} {x : Workshift L} {a b c d : Time}
    (hw : src.Lasts w a b) (hx : tb.Lasts x c d) (h1 : c ≤ a) (h2 : b ≤ d) (sch : Option (Schedule L)) :
    ∃ y, tb.getWorkshiftOf src w sch = .ok y ∧ y.loc = x.loc ∧ tb.Lasts y c d := by
  have hv := h.valid
  obtain ⟨_, _, _, _, kr, k1, k2⟩ := hw.facts h'.valid
  obtain ⟨_, _, f1, f2, _⟩ := hx.facts hv
  obtain ⟨y, c', d', e1, _, e2, _, e4, _, _⟩ := hv.getWorkshift_lasts (hx.at hv (t := src.timeline.refTime w.loc) (by omega) (by omega)) sch
  refine ⟨y, ?_, e2, ?_⟩
  · unfold Timeboard.getWorkshiftOf
    rw [kr]
    exact e1
  · obtain ⟨_, _, g1, g2, _⟩ := e4.facts hv
    rw [e2] at g1 g2
    rw [f1, f2, ← g1, ← g2]
    exact e4

/-- **C121**, the order is kept: of two workshifts, the one that is not later is carried over to one that is not later. -/
theorem C121_order {tb : Timeboard L} {src : Timeboard K} (h : tb.Reachable) (h' : src.Reachable) {w1 w2 : Workshift K} {a1 b1 a2 b2 : Time}
    (hw1 : src.Lasts w1 a1 b1) (hw2 : src.Lasts w2 a2 b2) (hle : w1.loc ≤ w2.loc) {s1 s2 : Option (Schedule L)} {x1 x2 : Workshift L}
    (hx1 : tb.getWorkshiftOf src w1 s1 = .ok x1) (hx2 : tb.getWorkshiftOf src w2 s2 = .ok x2) : x1.loc ≤ x2.loc := by
  have hv := h.valid
  have g1 := carried hv h'.valid hw1 hx1
  have g2 := carried hv h'.valid hw2 hx2
  obtain ⟨k0, _⟩ := hw1.facts h'.valid
  obtain ⟨_, k1, _⟩ := hw2.facts h'.valid
  have hr : src.timeline.refTime w1.loc ≤ src.timeline.refTime w2.loc := by
    rcases Int.lt_or_eq_of_le hle with hl | hl
    · have := h'.valid.wf.refTime_lt k0 hl k1; omega
    · rw [hl]; exact Int.le_refl _
  obtain ⟨p0, p1, p2, p3⟩ := (hv.wf.wsPosition_ok_iff _ _).1 (hv.at_iff.1 g1)
  obtain ⟨q0, q1, q2, q3⟩ := (hv.wf.wsPosition_ok_iff _ _).1 (hv.at_iff.1 g2)
  rcases Int.lt_or_le x2.loc x1.loc with hc | hc
  · have := Frame.unitStart_le_iff (f := tb.timeline.frame).2 (hv.wf.bnd_le_bnd (j := x2.loc + 1) (k := x1.loc) (by omega) (by omega) (by omega))
    omega
  · exact hc

/-- **C121**, there and back: what is carried over and carried back is the same workshift if and only if the point that stands for the workshift found lies within
the workshift one began with. -/
theorem C121_there_and_back {tb : Timeboard L} {src : Timeboard K} (h : tb.Reachable) (h' : src.Reachable) {w : Workshift K} {x : Workshift L} {a b : Time}
    (hw : src.Lasts w a b) {sch : Option (Schedule L)} (hx : tb.getWorkshiftOf src w sch = .ok x) (s : Option (Schedule K)) :
    ∃ t, x.toTimestamp tb = .ok t ∧ ((∃ z, src.getWorkshiftOf tb x s = .ok z ∧ z.loc = w.loc) ↔ (a ≤ t ∧ t ≤ b)) := by
  have hv := h.valid
  have hv' := h'.valid
  have g := carried hv hv' hw hx
  obtain ⟨y, _, hl, _, _, _, _, hr, _⟩ := Workshift.exists_of_range hv none g.1 g.2.1
  have hr : x.toTimestamp tb = .ok (tb.timeline.refTime x.loc) := hv.wf.wsRef_eq g.1 g.2.1
  refine ⟨_, hr, ?_⟩
  constructor
  · rintro ⟨z, hz, hzl⟩
    obtain ⟨y, hy, hyl, _, _, y1, y2, _, _⟩ := Workshift.exists_of_range hv none g.1 g.2.1
    have hxl : ∃ c d, tb.Lasts ⟨x.loc, y.label, y.schedule⟩ c d := by
      refine ⟨_, _, g.1, ⟨none, ?_⟩, hv.wf.wsStart_eq g.1 g.2.1, hv.wf.wsEnd_eq g.1 g.2.1⟩
      obtain ⟨_, _, _⟩ := y
      cases hyl
      exact hy
    obtain ⟨c, d, hxl⟩ := hxl
    have hz' : src.getWorkshiftOf tb ⟨x.loc, y.label, y.schedule⟩ s = .ok z := hz
    have g' := carried hv' hv hxl hz'
    rw [hzl] at g'
    obtain ⟨_, _, p2, p3⟩ := (hv'.wf.wsPosition_ok_iff _ _).1 (hv'.at_iff.1 g')
    obtain ⟨_, _, ka, kb, _⟩ := hw.facts hv'
    exact ⟨by rw [ka]; exact p2, by rw [kb]; exact Int.le_sub_one_of_lt p3⟩
  · rintro ⟨t1, t2⟩
    obtain ⟨z, _, _, e1, _, e2, _⟩ := hv'.getWorkshift_lasts (hw.at hv' t1 t2) s
    refine ⟨z, ?_, e2⟩
    unfold Timeboard.getWorkshiftOf
    rw [hr]
    exact e1

/-- **C121**, intervals: `tb.get_interval((ws1, ws2))` for workshifts of another timeboard is the interval from the workshift to which `ws1` is carried over to the
one to which `ws2` is carried over; for `ws1` not later than `ws2` there always is one unless a point that stands for them is out of `tb`, and it contains
whatever the workshifts between them are carried over to. -/
theorem C121_interval {tb : Timeboard L} {src : Timeboard K} (h : tb.Reachable) (h' : src.Reachable) {w1 w2 : Workshift K} {a1 b1 a2 b2 : Time}
    (hw1 : src.Lasts w1 a1 b1) (hw2 : src.Lasts w2 a2 b2) (hle : w1.loc ≤ w2.loc) (clip : Bool) {sch : Option (Schedule L)} (hs : tb.OwnsOpt sch) :
    (∀ x1 x2, tb.getWorkshiftOf src w1 = .ok x1 → tb.getWorkshiftOf src w2 = .ok x2 →
      tb.getIntervalOf src w1 w2 clip "11" sch = Interval.ofWorkshifts tb x1 x2 sch ∧
      tb.Yields sch (tb.getIntervalOf src w1 w2 clip "11" sch) (fun k => x1.loc ≤ k ∧ k ≤ x2.loc) ∧
      ∀ w a b, src.Lasts w a b → w1.loc ≤ w.loc → w.loc ≤ w2.loc → ∃ x, tb.getWorkshiftOf src w = .ok x ∧ x1.loc ≤ x.loc ∧ x.loc ≤ x2.loc) ∧
    (tb.getWorkshiftOf src w1 = .error .outOfBounds ∨ tb.getWorkshiftOf src w2 = .error .outOfBounds →
      tb.getIntervalOf src w1 w2 clip "11" sch = .error .outOfBounds ∨ tb.getIntervalOf src w1 w2 clip "11" sch = .error .partialOutOfBounds) := by
  have hv := h.valid
  have hv' := h'.valid
  obtain ⟨k0, k1, _, _, kr1, _, _⟩ := hw1.facts hv'
  obtain ⟨l0, l1, _, _, kr2, _, _⟩ := hw2.facts hv'
  have ei : tb.getIntervalOf src w1 w2 clip "11" sch =
      tb.getInterval (some (.pair (some (src.timeline.refTime w1.loc)) (some (src.timeline.refTime w2.loc)))) none none clip "11" sch := by
    unfold Timeboard.getIntervalOf
    rw [kr1, kr2]
  have refLe : ∀ j k, 0 ≤ j → j ≤ k → k < src.timeline.len → src.timeline.refTime j ≤ src.timeline.refTime k := by
    intro j k h0 h1 h2
    rcases Int.lt_or_eq_of_le h1 with hl | hl
    · have := hv'.wf.refTime_lt h0 hl h2; omega
    · rw [hl]; exact Int.le_refl _
  constructor
  · intro x1 x2 hx1 hx2
    have g1 := carried hv hv' hw1 hx1
    have g2 := carried hv hv' hw2 hx2
    have hord := C121_order h h' hw1 hw2 hle hx1 hx2
    have e : tb.getIntervalOf src w1 w2 clip "11" sch = Interval.new tb (x1.loc, x2.loc) sch := by
      rw [ei, hv.getInterval_pair g1 g2 closedOk_11]
      unfold cutInterval
      rw [headCut_11, tailCut_11, Int.add_zero, Int.sub_zero, if_pos hord]
    refine ⟨e, ?_, ?_⟩
    · rw [ei, hv.getInterval_pair g1 g2 closedOk_11]
      have := (hv.yields_cut hs g1.1 g2.2.1 "11").1
      simp only [headCut_11, tailCut_11, Int.add_zero, Int.sub_zero] at this
      exact this hord
    · intro w a b hw m1 m2
      obtain ⟨m0, m3, _, _, kr, _, _⟩ := hw.facts hv'
      have r1 := refLe w1.loc w.loc k0 m1 m3
      have r2 := refLe w.loc w2.loc m0 m2 l1
      have hin : tb.Within (src.timeline.refTime w.loc) := by
        have i1 := hv.wf.position_in_frame (hv.at_iff.1 g1)
        have i2 := hv.wf.position_in_frame (hv.at_iff.1 g2)
        exact ⟨Int.le_trans i1.1 r1, Int.le_trans r2 i2.2⟩
      obtain ⟨t, ht, hy, _⟩ := C121_workshift h h' hw none
      have ht : t = src.timeline.refTime w.loc := by
        obtain ⟨_, _, ka, kb, _⟩ := hw.facts hv'
        rw [ht, ka, kb]; rfl
      subst ht
      obtain ⟨x, _, _, hx, _⟩ := hy hin
      exact ⟨x, hx, C121_order h h' hw1 hw m1 hx1 hx, C121_order h h' hw hw2 m2 hx hx2⟩
  · intro hout
    have r1 := refLe w1.loc w2.loc k0 hle l1
    have hse := hv.start_lt_end
    have hnot : ¬ (tb.Within (src.timeline.refTime w1.loc) ∧ tb.Within (src.timeline.refTime w2.loc)) := by
      rintro ⟨i1, i2⟩
      obtain ⟨p, hp⟩ := hv.at_exists i1
      obtain ⟨q, hq⟩ := hv.at_exists i2
      obtain ⟨x, _, _, e1, _⟩ := hv.getWorkshift_lasts hp none
      obtain ⟨y, _, _, e2, _⟩ := hv.getWorkshift_lasts hq none
      unfold Timeboard.getWorkshiftOf at hout
      rw [kr1, kr2] at hout
      rcases hout with hout | hout
      · have hout : tb.getWorkshift (src.timeline.refTime w1.loc) none = .error .outOfBounds := hout
        rw [e1] at hout; cases hout
      · have hout : tb.getWorkshift (src.timeline.refTime w2.loc) none = .error .outOfBounds := hout
        rw [e2] at hout; cases hout
    obtain ⟨o1, o2, o3, o4, o5, _, _⟩ := C31_out_of_range_bounds h sch clip closedOk_11 (a := src.timeline.refTime w1.loc) (b := src.timeline.refTime w2.loc)
    rw [ei]
    unfold Timeboard.Within at *
    generalize src.timeline.refTime w1.loc = t1 at *
    generalize src.timeline.refTime w2.loc = t2 at *
    by_cases c1 : t1 < tb.startTime
    · by_cases c2 : t2 < tb.startTime
      · exact .inl (o1 c1 c2)
      · by_cases c3 : tb.endTime < t2
        · exact .inr (o5 c1 c3)
        · exact .inr (o3 c1 ⟨by omega, by omega⟩)
    · by_cases c3 : tb.endTime < t1
      · exact .inl (o2 c3 (by omega))
      · exact .inr (o4 ⟨by omega, by omega⟩ (by omega))

/-- **C121**, over the same time: `tb.get_interval((v.start_time, v.end_time))` for an interval of another timeboard consists of those workshifts which have a moment
in common with it, so it lasts at least as long; it lasts exactly as long if workshifts of `tb` start and end where the interval does. -/
theorem C121_over {tb : Timeboard L} {src : Timeboard K} (h : tb.Reachable) (h' : src.Reachable) {v : Interval K} (hi : src.HasInterval v)
    (hn : v.isVoid = false) (clip : Bool) {sch : Option (Schedule L)} (hs : tb.OwnsOpt sch) :
    ∃ a b, v.startTime src = .ok (some a) ∧ v.endTime src = .ok (some b) ∧
      (tb.Within a → tb.Within b → ∃ u, tb.getIntervalOver src v clip "11" sch = .ok u ∧ u.schedule = tb.effective sch ∧
        (∀ k, u.Contains tb k ↔ ∃ w c d, tb.Lasts w c d ∧ w.loc = k ∧ c ≤ b ∧ a ≤ d) ∧
        (∀ t, v.Covers src t → u.Covers tb t) ∧
        ((∃ w d, tb.Lasts w a d) → (∃ w c, tb.Lasts w c b) → ∀ t, u.Covers tb t ↔ v.Covers src t)) ∧
      (¬ (tb.Within a ∧ tb.Within b) → tb.getIntervalOver src v clip "11" sch = .error .outOfBounds ∨
        tb.getIntervalOver src v clip "11" sch = .error .partialOutOfBounds) := by
  have hv := h.valid
  have hv' := h'.valid
  have fv := hi.fine hv'
  have pv : v.Proper src := fv.shape.resolve_right (fun q => by rw [q.void] at hn; cases hn)
  have p0 := pv.lo_nonneg
  have p1 := pv.lo_le_hi
  have p2 := pv.hi_lt
  have hst : v.startTime src = .ok (some (src.timeline.frame.unitStart (src.timeline.bnd v.lo))) := by
    unfold Interval.startTime
    rw [hn, hv'.wf.wsStart_eq p0 (by omega)]
    rfl
  have hen : v.endTime src = .ok (some (src.timeline.frame.unitStart (src.timeline.bnd (v.hi + 1)) - 1)) := by
    unfold Interval.endTime
    rw [hn, hv'.wf.wsEnd_eq (by omega) p2]
    rfl
  have cv : ∀ t, v.Covers src t ↔ src.timeline.frame.unitStart (src.timeline.bnd v.lo) ≤ t ∧ t ≤ src.timeline.frame.unitStart (src.timeline.bnd (v.hi + 1)) - 1 := by
    intro t
    rw [pv.covers_iff hv']
    omega
  have hab : src.timeline.frame.unitStart (src.timeline.bnd v.lo) ≤ src.timeline.frame.unitStart (src.timeline.bnd (v.hi + 1)) - 1 := by
    have := Frame.unitStart_lt (f := src.timeline.frame) (hv'.wf.bnd_lt_bnd (j := v.lo) (k := v.hi + 1) p0 (by omega) (by omega))
    omega
  refine ⟨_, _, hst, hen, ?_⟩
  have eo : tb.getIntervalOver src v clip "11" sch = tb.getInterval (some (.pair (some (src.timeline.frame.unitStart (src.timeline.bnd v.lo)))
      (some (src.timeline.frame.unitStart (src.timeline.bnd (v.hi + 1)) - 1)))) none none clip "11" sch := by
    unfold Timeboard.getIntervalOver
    rw [hst, hen]
  rw [eo]
  generalize src.timeline.frame.unitStart (src.timeline.bnd v.lo) = a at *
  generalize src.timeline.frame.unitStart (src.timeline.bnd (v.hi + 1)) - 1 = b at *
  constructor
  · intro ha hb
    obtain ⟨u, e1, e2, e3, x, y, e4, e5, e6, e7⟩ := C72_covers h hs clip ha hb hab
    refine ⟨u, e1, e2, ?_, ?_, ?_⟩
    · intro k
      rw [e3]
      constructor
      · rintro ⟨k0, k1, w, c, d, q1, q2, q3, q4, q5⟩
        have := Workshift.new_loc q1
        exact ⟨w, c, d, ⟨by omega, ⟨none, by rw [this]; exact q1⟩, q2, q3⟩, this, q4, q5⟩
      · rintro ⟨w, c, d, hl, rfl, q1, q2⟩
        obtain ⟨k0, k1, f1, f2, _⟩ := hl.facts hv
        obtain ⟨w', r1, _, _, _, r2, r3, _⟩ := Workshift.exists_of_range hv none k0 k1
        exact ⟨k0, k1, w', c, d, r1, by rw [f1]; exact r2, by rw [f2]; exact r3, q1, q2⟩
    · intro t ht
      obtain ⟨t1, t2⟩ := (cv t).1 ht
      exact ⟨x, y, e4, e5, by omega, by omega⟩
    · rintro ⟨w, d, hl⟩ ⟨w', c, hl'⟩
      obtain ⟨i, j, hi', hj', hy', _⟩ := C30_two_points h hs clip ha hb
      have hi2 : i = w.loc := by
        obtain ⟨_, _, g1, _, _, g2, g3⟩ := hl.facts hv
        exact hv.at_unique hi' (hl.at hv (Int.le_refl a) (by omega))
      have hj2 : j = w'.loc := by
        obtain ⟨_, _, g1, _, _, g2, g3⟩ := hl'.facts hv
        exact hv.at_unique hj' (hl'.at hv (by omega) (Int.le_refl b))
      have e9 := hv.getInterval_pair hi' hj' (clip := clip) closedOk_11 sch
      rw [e1] at e9
      unfold cutInterval at e9
      rw [headCut_11, tailCut_11, Int.add_zero, Int.sub_zero] at e9
      split at e9
      · rename_i hij
        have pu := Interval.new_proper e9.symm
        have l1 : u.lo = i := by rw [(Interval.new_ok_iff.1 e9.symm).2.2.2]
        have l2 : u.hi = j := by rw [(Interval.new_ok_iff.1 e9.symm).2.2.2]
        obtain ⟨_, _, g1, _, _⟩ := hl.facts hv
        obtain ⟨_, _, _, g2, _⟩ := hl'.facts hv
        intro t
        rw [pu.covers_iff hv, cv, l1, l2, hi2, hj2, ← g1]
        omega
      · cases e9
  · intro hout
    have hse := hv.start_lt_end
    obtain ⟨o1, o2, o3, o4, o5, _, _⟩ := C31_out_of_range_bounds h sch clip closedOk_11 (a := a) (b := b)
    unfold Timeboard.Within at *
    by_cases c1 : a < tb.startTime
    · by_cases c2 : b < tb.startTime
      · exact .inl (o1 c1 c2)
      · by_cases c3 : tb.endTime < b
        · exact .inr (o5 c1 c3)
        · exact .inr (o3 c1 ⟨by omega, by omega⟩)
    · by_cases c3 : tb.endTime < a
      · exact .inl (o2 c3 (by omega))
      · exact .inr (o4 ⟨by omega, by omega⟩ (by omega))

/-- **C121**, a void interval has no start and end (they are `NaT`), and null bounds stand for the ends of the timeboard: so the same recipe gives the interval of
the whole timeboard. -/
theorem C121_void {tb : Timeboard L} (h : tb.Reachable) (src : Timeboard K) {v : Interval K} (hn : v.isVoid = true) (clip : Bool) {sch : Option (Schedule L)}
    (hs : tb.OwnsOpt sch) : tb.Yields sch (tb.getIntervalOver src v clip "11" sch) (fun k => 0 ≤ k ∧ k < tb.timeline.len) := by
  have e : tb.getIntervalOver src v clip "11" sch = tb.getInterval none none none clip "11" sch := by
    rw [getInterval_none]
    unfold Timeboard.getIntervalOver Interval.startTime Interval.endTime
    rw [hn]
    rfl
  rw [e]
  exact C30_whole_timeboard h hs clip

/-- **C121**, positions: `Interval(tb, (ws1, ws2))` takes the numbers of the workshifts. It is the interval between the same points in time if the workshifts with
these numbers last from the same to the same time on both timeboards. `_partial`: it is not in general, see `C121_negation`. -/
theorem C121_positions_partial {tb : Timeboard L} {src : Timeboard K} (h : tb.Reachable) (h' : src.Reachable) {w1 w2 : Workshift K} {x1 x2 : Workshift L}
    {a1 b1 a2 b2 : Time} (hw1 : src.Lasts w1 a1 b1) (hw2 : src.Lasts w2 a2 b2) (hx1 : tb.Lasts x1 a1 b1) (hx2 : tb.Lasts x2 a2 b2) (e1 : x1.loc = w1.loc)
    (e2 : x2.loc = w2.loc) (clip : Bool) (sch : Option (Schedule L)) :
    Interval.ofWorkshifts tb w1 w2 sch = tb.getIntervalOf src w1 w2 clip "11" sch := by
  have hv := h.valid
  obtain ⟨k0, k1, _, _, kr1, ka, kb⟩ := hw1.facts h'.valid
  obtain ⟨l0, l1, _, _, kr2, la, lb⟩ := hw2.facts h'.valid
  have g1 := hx1.at hv ka kb
  have g2 := hx2.at hv la lb
  unfold Timeboard.getIntervalOf
  rw [kr1, kr2]
  simp only
  rw [hv.getInterval_pair g1 g2 closedOk_11]
  unfold cutInterval Interval.ofWorkshifts
  rw [headCut_11, tailCut_11, Int.add_zero, Int.sub_zero, e1, e2]
  split
  · rfl
  · rename_i hgt
    rw [e1] at g1
    rw [e2] at g2
    exact (C59_interval_constructor (tb := tb) w1.loc w2.loc sch).2.2.2 ⟨g1.1, g1.2.1, g2.1, by omega⟩

/-- **C121**, the ready-made calendars: a day of one of them is carried over to the same day of the other one. -/
theorem C121_calendars {c c' : Calendar} (hc : Preconfigured c) (hc' : Preconfigured c') {cs ce cs' ce' : Option Time} {dna oc dna' oc' : Bool}
    {custom custom' : Option (List (Time × Int))} {heap heap' : Heap Int} {tb src : Timeboard Int} (h : c.new cs ce dna oc custom heap = .ok tb)
    (h' : c'.new cs' ce' dna' oc' custom' heap' = .ok src) {w : Workshift Int} {a b : Time} (hw : src.Lasts w a b) (sch : Option (Schedule Int)) :
    (tb.Within a → ∃ x, tb.getWorkshiftOf src w sch = .ok x ∧ tb.Lasts x a b) ∧
    (¬ tb.Within a → tb.getWorkshiftOf src w sch = .error .outOfBounds) := by
  obtain ⟨hr, _, _⟩ := hc.facts h
  obtain ⟨hr', _, _⟩ := hc'.facts h'
  have hv := hr.valid
  have hv' := hr'.valid
  obtain ⟨k0, k1, ka, kb, kr, k2, k3⟩ := hw.facts hv'
  rw [hc'.grid' h' k0 (by omega)] at ka
  rw [hc'.grid' h' (show 0 ≤ w.loc + 1 by omega) (by omega)] at kb
  have hin : tb.Within a → ∃ x, tb.getWorkshiftOf src w sch = .ok x ∧ tb.Lasts x a b := by
    intro hin
    obtain ⟨k, hk⟩ := hv.at_exists hin
    have hd := hc.at_day h hk
    rw [ka, dayOf_mul] at hd
    obtain ⟨x, c, d, _, _, e2, _, e4, _, _⟩ := hv.getWorkshift_lasts hk sch
    obtain ⟨_, _, f1, f2, _⟩ := e4.facts hv
    rw [e2, hc.grid' h hk.1 (by have := hk.2.1; omega), ← hd, ← ka] at f1
    rw [e2, hc.grid' h (show 0 ≤ k + 1 by have := hk.1; omega) (by have := hk.2.1; omega)] at f2
    have f3 : d = b := by
      rw [f2, kb]
      congr 2
      omega
    subst f1 f3
    obtain ⟨y, q1, _, q3⟩ := C121_within hr hr' hw e4 (Int.le_refl _) (Int.le_refl _) sch
    exact ⟨y, q1, q3⟩
  refine ⟨hin, ?_⟩
  intro hout
  obtain ⟨t, ht, h1, h2⟩ := C121_workshift hr hr' hw sch
  apply h2
  intro hc1
  apply hout
  obtain ⟨x, p, q, _, hx, x1, x2, _⟩ := h1 hc1
  obtain ⟨x0, x3, f1, f2, _⟩ := hx.facts hv
  rw [hc.grid' h x0 (by omega)] at f1
  have hd := hc.at_day h (hx.at hv x1 x2)
  have ht' : dayOf t = dayOf src.startTime + w.loc := hc'.at_day h' (hw.at hv' (by rw [ht]; split <;> omega) (by rw [ht]; split <;> omega))
  rw [← hd, ht', ← ka] at f1
  have i1 := hv.wf.position_in_frame (hv.at_iff.1 (hx.at hv (t := p) (Int.le_refl _) (by omega)))
  rw [f1] at i1
  exact i1

/-- **C121**, the claim fails for positions: 10 February 2017 of the American calendar of 2017 is number 40, which in the Russian calendar beginning with 1
February is 13 March; while `get_interval` finds 10 February. -/
theorem C121_negation : ∃ (us ru : Timeboard Int) (w : Workshift Int) (u v : Interval Int), (usCalendar).new (some (date 2017 1 1)) (some (date 2017 3 31)) = .ok us ∧
    (ruCalendar).new (some (date 2017 2 1)) (some (date 2017 3 31)) = .ok ru ∧ us.getWorkshift (date 2017 2 10) = .ok w ∧
    Interval.ofWorkshifts ru w w = .ok u ∧ ru.getIntervalOf us w w = .ok v ∧
    u.startTime ru = .ok (some (date 2017 3 13)) ∧ v.startTime ru = .ok (some (date 2017 2 10)) := by
  have key : (do
      let us ← (usCalendar).new (some (date 2017 1 1)) (some (date 2017 3 31))
      let ru ← (ruCalendar).new (some (date 2017 2 1)) (some (date 2017 3 31))
      let w ← us.getWorkshift (date 2017 2 10)
      let u ← Interval.ofWorkshifts ru w w
      let v ← ru.getIntervalOf us w w
      let a ← u.startTime ru
      let b ← v.startTime ru
      return (a, b)) = Except.ok (some (date 2017 3 13), some (date 2017 2 10)) := by decide +kernel
  obtain ⟨us, e1, key⟩ := bind_inv key
  obtain ⟨ru, e2, key⟩ := bind_inv key
  obtain ⟨w, e3, key⟩ := bind_inv key
  obtain ⟨u, e4, key⟩ := bind_inv key
  obtain ⟨v, e5, key⟩ := bind_inv key
  obtain ⟨a, e6, key⟩ := bind_inv key
  obtain ⟨b, e7, key⟩ := bind_inv key
  have key : (a, b) = (some (date 2017 3 13), some (date 2017 2 10)) := Except.ok.inj key
  injection key with k1 k2
  subst k1 k2
  exact ⟨us, ru, w, u, v, e1, e2, e3, e4, e5, e6, e7⟩

section Examples
open Ex

/-- Days from 30 October to 2 November 2017. -/
def fourDayArgs : Args Int where
  freq := fD
  start := date 2017 10 30
  stop := date 2017 11 2
  layout := .pattern (.list [1, 0])
  selector := fun l => l != 0
  defaultLabel := 0

def fourDays : Timeboard Int := board fourDayArgs (by decide +kernel)

theorem fourDays_reachable : fourDays.Reachable := board_reachable _ _

/-- The night shift from 18:00 of 30 October to 8:00 of 31 October, which stands for its end, is carried over to 31 October; this day, which stands for its start, is
carried over to the same shift; the day shift of 31 October is carried over to this day as well, but does not come back. -/
example : (do
    let w ← Workshift.new shifts 1
    let a ← w.startTime shifts
    let b ← w.endTime shifts
    let x ← fourDays.getWorkshiftOf shifts w
    let z ← shifts.getWorkshiftOf fourDays x
    let w' ← Workshift.new shifts 2
    let x' ← fourDays.getWorkshiftOf shifts w'
    let z' ← shifts.getWorkshiftOf fourDays x'
    let v ← fourDays.getIntervalOf shifts w w'
    let u ← Interval.new shifts (1, 2)
    let o ← fourDays.getIntervalOver shifts u
    let p ← Interval.ofWorkshifts fourDays w w'
    return ([a, b], [x.loc, z.loc, x'.loc, z'.loc], [(v.lo, v.hi), (o.lo, o.hi), (p.lo, p.hi)])) =
  Except.ok ([date 2017 10 30 + 18 * nsHour, date 2017 10 31 + 8 * nsHour - 1], [1, 1, 1, 1], [(1, 1), (0, 1), (1, 2)]) := by decide +kernel

/-- `Timeboard.Lasts` of that shift, so that the hypotheses of `C121_workshift`, `C121_within` (for the day shift), `C121_order` and the others are met. -/
example : ∃ w w' x, shifts.Lasts w (date 2017 10 30 + 18 * nsHour) (date 2017 10 31 + 8 * nsHour - 1) ∧
    shifts.Lasts w' (date 2017 10 31 + 8 * nsHour) (date 2017 10 31 + 18 * nsHour - 1) ∧ fourDays.Lasts x (date 2017 10 31) (date 2017 11 1 - 1) ∧ w.loc ≤ w'.loc := by
  have key : (do
      let w ← Workshift.new shifts 1
      let a ← w.startTime shifts
      let b ← w.endTime shifts
      let w' ← Workshift.new shifts 2
      let a' ← w'.startTime shifts
      let b' ← w'.endTime shifts
      let x ← Workshift.new fourDays 1
      let c ← x.startTime fourDays
      let d ← x.endTime fourDays
      return [a, b, a', b', c, d]) = Except.ok [date 2017 10 30 + 18 * nsHour, date 2017 10 31 + 8 * nsHour - 1, date 2017 10 31 + 8 * nsHour,
        date 2017 10 31 + 18 * nsHour - 1, date 2017 10 31, date 2017 11 1 - 1] := by decide +kernel
  obtain ⟨w, e1, key⟩ := bind_inv key
  obtain ⟨a, e2, key⟩ := bind_inv key
  obtain ⟨b, e3, key⟩ := bind_inv key
  obtain ⟨w', e4, key⟩ := bind_inv key
  obtain ⟨a', e5, key⟩ := bind_inv key
  obtain ⟨b', e6, key⟩ := bind_inv key
  obtain ⟨x, e7, key⟩ := bind_inv key
  obtain ⟨c, e8, key⟩ := bind_inv key
  obtain ⟨d, e9, key⟩ := bind_inv key
  have key := Except.ok.inj key
  simp only [List.cons.injEq, and_true] at key
  obtain ⟨k1, k2, k3, k4, k5, k6⟩ := key
  subst k1 k2 k3 k4 k5 k6
  have l1 := Workshift.new_loc e1
  have l2 := Workshift.new_loc e4
  have l3 := Workshift.new_loc e7
  exact ⟨w, w', x, ⟨by omega, ⟨none, by rw [l1]; exact e1⟩, e2, e3⟩, ⟨by omega, ⟨none, by rw [l2]; exact e4⟩, e5, e6⟩,
    ⟨by omega, ⟨none, by rw [l3]; exact e7⟩, e8, e9⟩, by omega⟩

/-- A void interval of `shifts`, carried over by its times, is all four days. -/
example : (do
    let u ← Interval.new shifts (0, 1)
    let v ← Interval.new shifts (3, 4)
    let x ← u.overlap shifts v
    let o ← fourDays.getIntervalOver shifts x
    return (x.isVoid, o.lo, o.hi)) = Except.ok (true, 0, 3) := by decide +kernel

end Examples
end TB
