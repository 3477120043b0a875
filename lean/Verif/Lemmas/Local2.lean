import Verif.Lemmas.Local
import Verif.Spec.Local
/-! Timeboards which agree on a stretch of time have a run of workshifts in common. -/
namespace TB
open Reference
variable {L : Type} {tb tb' : Timeboard L} {xs xs' : List (Shift L)}

theorem Timeboard.ListedAs.view (hx : tb.ListedAs xs) (hv : tb.Valid) {w : Workshift L} (h0 : 0 ≤ w.loc) (h1 : w.loc < tb.timeline.len)
    (hl : tb.timeline.label w.loc = .ok w.label) : ∃ x, w.view tb = some x ∧ xs[w.loc.toNat]? = some x := by
  obtain ⟨x, a1, a2, a3, a4, a5, a6⟩ := hx.get hv h0 h1
  obtain ⟨w', b1, b2, _, b4, b5, b6, b7, b8⟩ := Workshift.exists_of_range hv none h0 h1
  refine ⟨x, ?_, a1⟩
  unfold Workshift.startTime at b5
  unfold Workshift.endTime at b6
  unfold Workshift.toTimestamp at b7
  unfold Workshift.duration at b8
  rw [b2] at b5 b6 b7 b8
  unfold Workshift.view
  unfold Workshift.startTime Workshift.endTime Workshift.toTimestamp Workshift.duration
  simp only [b5, b6, b7, b8, Option.some.injEq]
  rw [hl] at a2
  obtain ⟨_, _, _, _, _⟩ := x
  simp only [Shift.mk.injEq]
  simp only at a2 a3 a4 a5 a6
  exact ⟨a3.symm, a4.symm, a5.symm, a6.symm, Except.ok.inj a2⟩

theorem exists_step (g : Int → Int) (i t : Int) : ∀ n : Nat, g i ≤ t → t < g (i + n) → ∃ k, i ≤ k ∧ k < i + n ∧ g k ≤ t ∧ t < g (k + 1)
  | 0, h1, h2 => by simp at h2; omega
  | n + 1, h1, h2 => by
    by_cases h : t < g (i + n)
    · obtain ⟨k, a, b, c, d⟩ := exists_step g i t n h1 h
      exact ⟨k, a, by omega, c, d⟩
    · exact ⟨i + n, by omega, by omega, by omega, by rw [show i + (n : Int) + 1 = i + ((n + 1 : Nat) : Int) from by omega]; exact h2⟩

/-- Some consecutive workshifts. -/
theorem Timeboard.ListedAs.run (hx : tb.ListedAs xs) (hv : tb.Valid) {i j : Int} (h0 : 0 ≤ i) (h1 : i ≤ j) (h2 : j < tb.timeline.len) :
    Run xs ((xs.drop i.toNat).take (j + 1 - i).toNat) i.toNat (tb.timeline.frame.unitStart (tb.timeline.bnd i))
      (tb.timeline.frame.unitStart (tb.timeline.bnd (j + 1)) - 1) := by
  have wf := hv.wf
  have hlen := hx.1
  constructor
  · refine ⟨xs.take i.toNat, xs.drop (j + 1).toNat, ?_, ?_, ?_, ?_⟩
    · rw [List.length_take]; omega
    · have e1 : xs.drop (j + 1).toNat = (xs.drop i.toNat).drop (j + 1 - i).toNat := by
        rw [List.drop_drop]; congr 1; omega
      rw [e1, List.take_append_drop, List.take_append_drop]
    · intro x hxm
      obtain ⟨k, hk⟩ := List.getElem?_of_mem hxm
      have hki : k < i.toNat := by
        have := (List.getElem?_eq_some_iff.1 hk).1
        rw [List.length_take] at this; omega
      rw [List.getElem?_take_of_lt hki] at hk
      obtain ⟨x', a1, _, a3, a4, a5, _⟩ := hx.get hv (k := k) (by omega) (by omega)
      rw [Int.toNat_natCast, hk] at a1
      cases a1
      have m1 := Frame.unitStart_le_iff (f := tb.timeline.frame).2 (wf.bnd_le_bnd (j := (k : Int) + 1) (k := i) (by omega) (by omega) (by omega))
      have m2 := wf.refTime_lt_of_pos (j := k) (c := i) (by omega) (by omega) (by omega) (Int.le_refl _)
      have m3 := Frame.unitStart_lt_iff (f := tb.timeline.frame).2 (wf.bnd_lt_bnd (j := (k : Int)) (k := k + 1) (by omega) (by omega) (by omega))
      omega
    · intro x hxm
      obtain ⟨k, hk⟩ := List.getElem?_of_mem hxm
      rw [List.getElem?_drop] at hk
      have hkl := (List.getElem?_eq_some_iff.1 hk).1
      generalize hm : (j + 1).toNat + k = m at hk hkl
      obtain ⟨x', a1, _, a3, a4, a5, _⟩ := hx.get hv (k := m) (by omega) (by omega)
      rw [Int.toNat_natCast, hk] at a1
      cases a1
      have m1 := Frame.unitStart_le_iff (f := tb.timeline.frame).2 (wf.bnd_le_bnd (j := j + 1) (k := m) (by omega) (by omega) (by omega))
      have m2 := wf.lt_refTime_of_pos (j := m) (c := j) (t := tb.timeline.frame.unitStart (tb.timeline.bnd (j + 1)) - 1) (by omega) (by omega) (by omega) (by omega)
      have m3 := Frame.unitStart_lt_iff (f := tb.timeline.frame).2 (wf.bnd_lt_bnd (j := (m : Int)) (k := m + 1) (by omega) (by omega) (by omega))
      omega
  · intro t t1 t2
    obtain ⟨k, k0, k1, k2, k3⟩ := exists_step (fun k => tb.timeline.frame.unitStart (tb.timeline.bnd k)) i t (j + 1 - i).toNat t1
      (by rw [show i + ((j + 1 - i).toNat : Int) = j + 1 from by omega]; omega)
    obtain ⟨x, a1, _, a3, a4, _, _⟩ := hx.get hv (k := k) (by omega) (by omega)
    refine ⟨x, ?_, by omega, by omega⟩
    apply List.mem_of_getElem? (i := (k - i).toNat)
    rw [List.getElem?_take_of_lt (by omega), List.getElem?_drop, ← a1]
    congr 1; omega
  · intro x hxm
    obtain ⟨k, hk⟩ := List.getElem?_of_mem hxm
    have hkl := (List.getElem?_eq_some_iff.1 hk).1
    rw [List.length_take, List.length_drop] at hkl
    rw [List.getElem?_take_of_lt (by omega), List.getElem?_drop] at hk
    generalize hm : i.toNat + k = m at hk
    obtain ⟨x', a1, _, a3, a4, _, _⟩ := hx.get hv (k := m) (by omega) (by omega)
    rw [Int.toNat_natCast, hk] at a1
    cases a1
    have m1 := Frame.unitStart_le_iff (f := tb.timeline.frame).2 (wf.bnd_le_bnd (j := i) (k := m) (by omega) (by omega) (by omega))
    have m2 := Frame.unitStart_le_iff (f := tb.timeline.frame).2 (wf.bnd_le_bnd (j := (m : Int) + 1) (k := j + 1) (by omega) (by omega) (by omega))
    omega

/-- The workshift found at a point in time. -/
theorem Timeboard.ListedAs.found (hx : tb.ListedAs xs) (hv : tb.Valid) {t : Time} {sch : Option (Schedule L)} {w : Workshift L} (h : tb.getWorkshift t sch = .ok w) :
    0 ≤ w.loc ∧ w.loc < tb.timeline.len ∧ tb.timeline.label w.loc = .ok w.label ∧ tb.timeline.frame.unitStart (tb.timeline.bnd w.loc) ≤ t ∧
    t < tb.timeline.frame.unitStart (tb.timeline.bnd (w.loc + 1)) ∧
    ∃ x, w.view tb = some x ∧ xs[w.loc.toNat]? = some x ∧ x.start = tb.timeline.frame.unitStart (tb.timeline.bnd w.loc) ∧
      x.stop = tb.timeline.frame.unitStart (tb.timeline.bnd (w.loc + 1)) - 1 := by
  have hw : tb.Within t := by
    apply Classical.byContradiction
    intro hn
    have := hx.getWorkshift hv t sch
    rw [h] at this
    unfold Reference.getWorkshift at this
    rw [hx.head_none hv hn] at this
    cases this
  obtain ⟨k, hk⟩ := hv.at_exists hw
  have h1 := hx.getWorkshift hv t sch
  unfold Reference.getWorkshift at h1
  rw [hx.head_at hv hk, h] at h1
  have hloc : w.loc = k := Except.ok.inj h1
  have hp := (hv.wf.wsPosition_ok_iff t k).1 (hv.at_iff.1 hk)
  rw [← hloc] at hp
  have hl : tb.timeline.label w.loc = .ok w.label := by
    unfold Timeboard.getWorkshift at h
    rw [hv.locate_at hk] at h
    obtain ⟨w', b1, b2, _, b4, _⟩ := Workshift.exists_of_range hv sch (k := k) (by omega) (by omega)
    have h' : Workshift.new tb k sch = .ok w := h
    rw [b1] at h'
    cases h'
    rw [b2]; exact b4
  obtain ⟨x, v1, v2⟩ := hx.view hv hp.1 hp.2.1 hl
  obtain ⟨x', a1, _, a3, a4, _, _⟩ := hx.get hv hp.1 hp.2.1
  rw [v2] at a1
  cases a1
  exact ⟨hp.1, hp.2.1, hl, hp.2.2.1, hp.2.2.2, x, v1, v2, a3, a4⟩

/-- The run which both timeboards have. -/
theorem Timeboard.AgreesOn.runs {s e : Time} (ha : tb.AgreesOn tb' s e) (hv : tb.Valid) (hv' : tb'.Valid) (hx : tb.ListedAs xs) (hx' : tb'.ListedAs xs') :
    ∃ R a a', Run xs R a s e ∧ Run xs' R a' s e := by
  have wf := hv.wf
  have wf' := hv'.wf
  -- the ends
  obtain ⟨w1, w1', x1, b1, b1', c1, c1', d1, f1⟩ := ha.same s (Int.le_refl _) ha.nonempty
  obtain ⟨w2, w2', x2, b2, b2', c2, c2', d2, f2⟩ := ha.same e ha.nonempty (Int.le_refl _)
  obtain ⟨i0, i1, _, i2, i3, y1, i4, i5, i6, i7⟩ := hx.found hv b1
  obtain ⟨i0', i1', _, i2', i3', y1', i4', i5', i6', i7'⟩ := hx'.found hv' b1'
  obtain ⟨j0, j1, _, j2, j3, y2, j4, j5, j6, j7⟩ := hx.found hv b2
  obtain ⟨j0', j1', _, j2', j3', y2', j4', j5', j6', j7'⟩ := hx'.found hv' b2'
  rw [c1] at i4; cases i4
  rw [c1'] at i4'; cases i4'
  rw [c2] at j4; cases j4
  rw [c2'] at j4'; cases j4'
  generalize hi : w1.loc = i at *
  generalize hi' : w1'.loc = i' at *
  generalize hj : w2.loc = j at *
  generalize hj' : w2'.loc = j' at *
  have hs : tb.timeline.frame.unitStart (tb.timeline.bnd i) = s := by omega
  have hs' : tb'.timeline.frame.unitStart (tb'.timeline.bnd i') = s := by omega
  have he : tb.timeline.frame.unitStart (tb.timeline.bnd (j + 1)) - 1 = e := by omega
  have he' : tb'.timeline.frame.unitStart (tb'.timeline.bnd (j' + 1)) - 1 = e := by omega
  have hij : i ≤ j := by
    apply Classical.byContradiction
    intro hn
    have := Frame.unitStart_le_iff (f := tb.timeline.frame).2 (wf.bnd_le_bnd (j := j + 1) (k := i) (by omega) (by omega) (by omega))
    have := ha.nonempty
    omega
  have hij' : i' ≤ j' := by
    apply Classical.byContradiction
    intro hn
    have := Frame.unitStart_le_iff (f := tb'.timeline.frame).2 (wf'.bnd_le_bnd (j := j' + 1) (k := i') (by omega) (by omega) (by omega))
    have := ha.nonempty
    omega
  -- one by one
  have key : ∀ m : Nat, i + m ≤ j → i' + m ≤ j' ∧ ∃ x, xs[(i + m).toNat]? = some x ∧ xs'[(i' + m).toNat]? = some x := by
    intro m
    induction m with
    | zero => intro _; exact ⟨by omega, x1, by simpa using i5, by simpa using i5'⟩
    | succ m ih =>
      intro hm
      obtain ⟨g0, x, g1, g2⟩ := ih (by omega)
      obtain ⟨z, p1, _, p3, p4, _, _⟩ := hx.get hv (k := i + m) (by omega) (by omega)
      rw [g1] at p1; cases p1
      obtain ⟨z, q1, _, q3, q4, _, _⟩ := hx'.get hv' (k := i' + m) (by omega) (by omega)
      rw [g2] at q1; cases q1
      have m1 := Frame.unitStart_le_iff (f := tb.timeline.frame).2 (wf.bnd_le_bnd (j := i + m + 1) (k := j) (by omega) (by omega) (by omega))
      have m2 := Frame.unitStart_le_iff (f := tb.timeline.frame).2 (wf.bnd_le_bnd (j := i) (k := i + m + 1) (by omega) (by omega) (by omega))
      have hm' : i' + m + 1 ≤ j' := by
        apply Classical.byContradiction
        intro hn
        have : i' + m = j' := by omega
        rw [this] at q4
        omega
      obtain ⟨w, w', y, r1, r1', r2, r2', _, _⟩ := ha.same (x.stop + 1) (by omega) (by omega)
      obtain ⟨u0, u1, _, u2, u3, u, u4, u5, u6, u7⟩ := hx.found hv r1
      obtain ⟨u0', u1', _, u2', u3', u', u4', u5', u6', u7'⟩ := hx'.found hv' r1'
      rw [r2] at u4; cases u4
      rw [r2'] at u4'; cases u4'
      have hloc : w.loc = i + m + 1 := by
        have v1 : w.loc < i + m + 1 + 1 := (wf.bnd_lt_iff (by omega) (by omega) (by omega) (by omega)).1
          ((Frame.unitStart_lt_iff (f := tb.timeline.frame)).1 (by
            have := Frame.unitStart_lt_iff (f := tb.timeline.frame).2 (wf.bnd_lt_bnd (j := i + m + 1) (k := i + m + 1 + 1) (by omega) (by omega) (by omega))
            omega))
        have v2 : i + m + 1 < w.loc + 1 := (wf.bnd_lt_iff (by omega) (by omega) (by omega) (by omega)).1
          ((Frame.unitStart_lt_iff (f := tb.timeline.frame)).1 (by omega))
        omega
      have hloc' : w'.loc = i' + m + 1 := by
        have v1 : w'.loc < i' + m + 1 + 1 := (wf'.bnd_lt_iff (by omega) (by omega) (by omega) (by omega)).1
          ((Frame.unitStart_lt_iff (f := tb'.timeline.frame)).1 (by
            have := Frame.unitStart_lt_iff (f := tb'.timeline.frame).2 (wf'.bnd_lt_bnd (j := i' + m + 1) (k := i' + m + 1 + 1) (by omega) (by omega) (by omega))
            omega))
        have v2 : i' + m + 1 < w'.loc + 1 := (wf'.bnd_lt_iff (by omega) (by omega) (by omega) (by omega)).1
          ((Frame.unitStart_lt_iff (f := tb'.timeline.frame)).1 (by omega))
        omega
      rw [hloc] at u5
      rw [hloc'] at u5'
      refine ⟨by omega, y, ?_, ?_⟩
      · rw [← u5]; congr 1; omega
      · rw [← u5']; congr 1; omega
  -- the same number of workshifts
  have hn : j - i = j' - i' := by
    obtain ⟨g0, x, g1, g2⟩ := key (j - i).toNat (by omega)
    obtain ⟨z, q1, _, q3, q4, _, _⟩ := hx'.get hv' (k := i' + (j - i).toNat) (by omega) (by omega)
    rw [g2] at q1; cases q1
    rw [show i + ((j - i).toNat : Int) = j from by omega, j5] at g1
    cases g1
    apply Classical.byContradiction
    intro hne
    have m1 := Frame.unitStart_lt_iff (f := tb'.timeline.frame).2 (wf'.bnd_lt_bnd (j := i' + (j - i).toNat + 1) (k := j' + 1) (by omega) (by omega) (by omega))
    omega
  have r1 := hx.run hv i0 hij j1
  have r2 := hx'.run hv' i0' hij' j1'
  rw [hs, he] at r1
  rw [hs', he'] at r2
  have heq : (xs'.drop i'.toNat).take (j' + 1 - i').toNat = (xs.drop i.toNat).take (j + 1 - i).toNat := by
    apply List.ext_getElem?
    intro m
    by_cases hm : m < (j + 1 - i).toNat
    · rw [List.getElem?_take_of_lt (by omega), List.getElem?_take_of_lt hm, List.getElem?_drop, List.getElem?_drop]
      obtain ⟨_, x, g1, g2⟩ := key m (by omega)
      rw [show i.toNat + m = (i + m).toNat from by omega, show i'.toNat + m = (i' + m).toNat from by omega, g1, g2]
    · rw [List.getElem?_eq_none (by rw [List.length_take]; omega), List.getElem?_eq_none (by rw [List.length_take]; omega)]
  rw [heq] at r2
  exact ⟨_, _, _, r1, r2⟩

end TB
