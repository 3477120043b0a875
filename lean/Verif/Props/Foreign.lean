import Verif.Spec.Foreign
import Verif.Lemmas.Intervals
import Verif.Props.Overlap
import Verif.Lemmas.WorkingDays
/-! Property C103: intervals of different timeboards. -/
namespace TB
variable {L : Type}

theorem Interval.Proper.covers_iff {v : Interval L} {tb : Timeboard L} (hp : v.Proper tb) (hv : tb.Valid) (t : Time) :
    v.Covers tb t ↔ tb.timeline.frame.unitStart (tb.timeline.bnd v.lo) ≤ t ∧ t < tb.timeline.frame.unitStart (tb.timeline.bnd (v.hi + 1)) := by
  have h0 := hp.lo_nonneg
  have h1 := hp.lo_le_hi
  have h2 := hp.hi_lt
  unfold Interval.Covers Interval.startTime Interval.endTime
  simp only [hp.not_void, Bool.false_eq_true, if_false]
  rw [hv.wf.wsStart_eq h0 (by omega), hv.wf.wsEnd_eq (by omega) h2]
  constructor
  · rintro ⟨a, b, ha, hb, h3, h4⟩
    injection ha with ha; injection ha with ha
    injection hb with hb; injection hb with hb
    omega
  · rintro ⟨h3, h4⟩
    exact ⟨_, _, rfl, rfl, h3, by omega⟩

theorem Interval.Hollow.not_covers {v : Interval L} {tb : Timeboard L} (h : v.Hollow tb) (t : Time) : ¬ v.Covers tb t := by
  rintro ⟨a, b, ha, _⟩
  unfold Interval.startTime at ha
  rw [h.void] at ha
  simp at ha

/-- What `overlap` does with an interval of another timeboard. -/
theorem Interval.Fine.overlap_other {tb tb' : Timeboard L} {u v : Interval L} (hu : u.Fine tb) (hv : v.Fine tb')
    {s : Option (Schedule L)} (hs : tb.OwnsOpt s) :
    (u.isVoid = false ∧ tb.timeline.len ≤ v.lo ∧ u.overlap tb v s = .error .outOfBounds) ∨
    (¬ (u.isVoid = false ∧ tb.timeline.len ≤ v.lo) ∧ ∃ x, u.overlap tb v s = .ok x ∧ x.Fine tb ∧ x.schedule = s.getD u.schedule ∧
      (∀ k, (x.lo ≤ k ∧ k ≤ x.hi) ↔ ((u.lo ≤ k ∧ k ≤ u.hi) ∧ (v.lo ≤ k ∧ k ≤ v.hi))) ∧
      (u.isVoid = false → x.lo = max u.lo v.lo ∧ x.hi = min u.hi v.hi)) := by
  have hu0 := hu.nonneg
  have hu1 := hu.lt
  have hv0 := hv.nonneg
  have ho := owns_getD_fine hu hs
  have hmx : max u.lo v.lo = if u.lo ≤ v.lo then v.lo else u.lo := rfl
  have hmn : min u.hi v.hi = if u.hi ≤ v.hi then u.hi else v.hi := rfl
  rcases hu.shape with hp | hh
  · unfold Interval.overlap
    simp only [hp.not_void, Bool.false_eq_true, if_false, true_and]
    generalize hM : max u.lo v.lo = M at *
    generalize hm : min u.hi v.hi = m at *
    by_cases hb : tb.timeline.len ≤ v.lo
    · left
      have : Interval.new tb (M, m) (some (s.getD u.schedule)) = .error .outOfBounds := Interval.new_error_iff.2 (.inl ⟨rfl, by omega⟩)
      rw [this]
      exact ⟨hb, rfl⟩
    · right
      refine ⟨hb, ?_⟩
      have a1 : 0 ≤ M ∧ M < tb.timeline.len := by omega
      have a2 : 0 ≤ m ∧ m < tb.timeline.len := by omega
      by_cases hlt : M ≤ m
      · obtain ⟨x, hx⟩ : ∃ x, x = ({ lo := M, hi := m, length := m - M + 1, isVoid := false, schedule := s.getD u.schedule } : Interval L) := ⟨_, rfl⟩
        have hnew : Interval.new tb (M, m) (some (s.getD u.schedule)) = .ok x := Interval.new_ok_iff.2 ⟨a1.1, hlt, a2.2, hx⟩
        have e1 : x.lo = M := by rw [hx]
        have e2 : x.hi = m := by rw [hx]
        have e3 : x.schedule = s.getD u.schedule := by rw [hx]
        refine ⟨x, by rw [hnew], ⟨by rw [e3]; exact ho, .inl (Interval.new_proper hnew)⟩, e3, ?_, fun _ => ⟨e1, e2⟩⟩
        intro k; omega
      · obtain ⟨x, hx⟩ : ∃ x, x = ({ lo := M, hi := m, length := 0, isVoid := true, schedule := s.getD u.schedule } : Interval L) := ⟨_, rfl⟩
        have hnew : Interval.new tb (M, m) (some (s.getD u.schedule)) = .error .voidInterval :=
          Interval.new_error_iff.2 (.inr ⟨rfl, by omega⟩)
        have hnewv : Interval.newVoid tb (M, m) (some (s.getD u.schedule)) = .ok x :=
          Interval.newVoid_ok_iff.2 ⟨a2.1, by omega, a1.2, hx⟩
        have e1 : x.lo = M := by rw [hx]
        have e2 : x.hi = m := by rw [hx]
        have e3 : x.schedule = s.getD u.schedule := by rw [hx]
        have e4 : x.isVoid = true := by rw [hx]
        have e5 : x.length = 0 := by rw [hx]
        refine ⟨x, by rw [hnew]; exact hnewv, ⟨by rw [e3]; exact ho, .inr ⟨by omega, by omega, by omega, e4, e5⟩⟩, e3, ?_, fun _ => ⟨e1, e2⟩⟩
        intro k; omega
  · right
    unfold Interval.overlap
    have h1 := hh.hi_nonneg
    have h2 := hh.hi_lt_lo
    have h3 := hh.lo_lt
    simp only [hh.void, if_true]
    refine ⟨by simp, _, Interval.newVoid_ok_iff.2 ⟨h1, h2, h3, rfl⟩, ⟨ho, .inr ⟨h1, h2, h3, rfl, rfl⟩⟩, rfl, ?_, by simp⟩
    intro k
    show u.lo ≤ k ∧ k ≤ u.hi ↔ _
    omega

/-- **C103**, as it is coded: intervals are compared by the numbers of their workshifts, whatever the timeboard. The overlap with an interval which begins
beyond the last number raises an error. -/
theorem C103_positions {tb tb' : Timeboard L} (h : tb.Reachable) (h' : tb'.Reachable) {u v : Interval L} (hu : tb.HasInterval u) (hv : tb'.HasInterval v)
    {s : Option (Schedule L)} (hs : tb.OwnsOpt s) :
    (u.overlap tb v s = .error .outOfBounds ∧ ∀ k, ¬ (u.Contains tb k ∧ v.Contains tb' k)) ∨
    (∃ x, u.overlap tb v s = .ok x ∧ x.schedule = s.getD u.schedule ∧ ∀ k, x.Contains tb k ↔ (u.Contains tb k ∧ v.Contains tb' k)) := by
  have fu := hu.fine h.valid
  have fv := hv.fine h'.valid
  rcases fu.overlap_other fv hs with ⟨_, h2, h3⟩ | ⟨_, x, h1, h2, h3, h4, _⟩
  · left
    refine ⟨h3, ?_⟩
    intro k
    rw [fu.contains_iff h.valid, fv.contains_iff h'.valid]
    have := fu.lt
    omega
  · right
    refine ⟨x, h1, h3, ?_⟩
    intro k
    rw [h2.contains_iff h.valid, fu.contains_iff h.valid, fv.contains_iff h'.valid]
    exact h4 k

/-- On aligned timeboards the bounds of the workshifts are at the same times. -/
theorem Timeboard.Aligned.starts {tb tb' : Timeboard L} (ha : tb.Aligned tb') (hv : tb.Valid) (hv' : tb'.Valid) {k : Int} (h0 : 0 ≤ k)
    (h1 : k < tb.timeline.len) (h2 : k < tb'.timeline.len) :
    tb.timeline.frame.unitStart (tb.timeline.bnd k) = tb'.timeline.frame.unitStart (tb'.timeline.bnd k) ∧
    tb.timeline.frame.unitStart (tb.timeline.bnd (k + 1)) = tb'.timeline.frame.unitStart (tb'.timeline.bnd (k + 1)) := by
  obtain ⟨w, a1, _, _, _, a2, a3, _⟩ := Workshift.exists_of_range hv none h0 h1
  obtain ⟨w', b1, _, _, _, b2, b3, _⟩ := Workshift.exists_of_range hv' none h0 h2
  obtain ⟨e1, e2⟩ := ha k w w' h0 a1 b1
  rw [a2, b2] at e1
  rw [a3, b3] at e2
  injection e1 with e1
  injection e2 with e2
  omega

/-- **C103**, partial: if the workshifts with the same number are at the same times on both timeboards, the overlap covers the moments which are in both
intervals; and if it raises an error, there are none. (Missing: timeboards which are not aligned, see `C103_negation`; and an overlap which is void instead of
the error.) -/
theorem C103_aligned_partial {tb tb' : Timeboard L} (h : tb.Reachable) (h' : tb'.Reachable) (ha : tb.Aligned tb') {u v : Interval L} (hu : tb.HasInterval u)
    (hv : tb'.HasInterval v) {s : Option (Schedule L)} (hs : tb.OwnsOpt s) :
    (u.overlap tb v s = .error .outOfBounds ∧ ∀ t, ¬ (u.Covers tb t ∧ v.Covers tb' t)) ∨
    (∃ x, u.overlap tb v s = .ok x ∧ ∀ t, x.Covers tb t ↔ (u.Covers tb t ∧ v.Covers tb' t)) := by
  have hvd := h.valid
  have hvd' := h'.valid
  have fu := hu.fine hvd
  have fv := hv.fine hvd'
  have mono : ∀ j k, 0 ≤ j → j ≤ k → k ≤ tb.timeline.len →
      tb.timeline.frame.unitStart (tb.timeline.bnd j) ≤ tb.timeline.frame.unitStart (tb.timeline.bnd k) :=
    fun j k h0 h1 h2 => Frame.unitStart_le_iff.2 (hvd.wf.bnd_le_bnd h0 h1 h2)
  have mono' : ∀ j k, 0 ≤ j → j ≤ k → k ≤ tb'.timeline.len →
      tb'.timeline.frame.unitStart (tb'.timeline.bnd j) ≤ tb'.timeline.frame.unitStart (tb'.timeline.bnd k) :=
    fun j k h0 h1 h2 => Frame.unitStart_le_iff.2 (hvd'.wf.bnd_le_bnd h0 h1 h2)
  have hpos := hvd.wf.len_pos
  rcases fu.overlap_other fv hs with ⟨_, h2, h3⟩ | ⟨hn, x, h1, h2, h3, h4, h5⟩
  · left
    refine ⟨h3, ?_⟩
    rintro t ⟨t1, t2⟩
    rcases fu.shape with pu | hu
    · rcases fv.shape with pv | hv
      · have := (pu.covers_iff hvd t).1 t1
        have := (pv.covers_iff hvd' t).1 t2
        have p1 := pv.hi_lt
        have p2 := pv.lo_le_hi
        have q1 := pu.hi_lt
        have q0 := pu.lo_nonneg
        have q2 := pu.lo_le_hi
        have a := (ha.starts hvd hvd' (k := u.hi) (by omega) (by omega) (by omega)).2
        have b := mono' (u.hi + 1) v.lo (by omega) (by omega) (by omega)
        omega
      · exact hv.not_covers t t2
    · exact hu.not_covers t t1
  · right
    refine ⟨x, h1, ?_⟩
    intro t
    rcases fu.shape with pu | hu
    · rcases fv.shape with pv | hv
      · rw [pu.covers_iff hvd t, pv.covers_iff hvd' t]
        have p0 := pv.lo_nonneg
        have p1 := pv.hi_lt
        have p2 := pv.lo_le_hi
        have q0 := pu.lo_nonneg
        have q1 := pu.hi_lt
        have q2 := pu.lo_le_hi
        obtain ⟨e1, e2⟩ := h5 pu.not_void
        have hl : v.lo < tb.timeline.len := by
          rcases Int.lt_or_le v.lo tb.timeline.len with hl | hl
          · exact hl
          · exact absurd ⟨pu.not_void, hl⟩ hn
        rcases h2.shape with px | hx
        · rw [px.covers_iff hvd t]
          have xl : x.lo = u.lo ∨ x.lo = v.lo := by rw [e1]; omega
          have xh : x.hi = u.hi ∨ x.hi = v.hi := by rw [e2]; omega
          have x0 := px.lo_le_hi
          have l1 : u.lo ≤ x.lo ∧ v.lo ≤ x.lo := by rw [e1]; omega
          have l2 : x.hi ≤ u.hi ∧ x.hi ≤ v.hi := by rw [e2]; omega
          have x1 := px.hi_lt
          have a := (ha.starts hvd hvd' (k := x.lo) (by omega) (by omega) (by omega)).1
          have b := (ha.starts hvd hvd' (k := x.hi) (by omega) (by omega) (by omega)).2
          have m1 := mono u.lo x.lo (by omega) (by omega) (by omega)
          have m2 := mono (x.hi + 1) (u.hi + 1) (by omega) (by omega) (by omega)
          have m3 := mono' v.lo x.lo (by omega) (by omega) (by omega)
          have m4 := mono' (x.hi + 1) (v.hi + 1) (by omega) (by omega) (by omega)
          constructor
          · intro ⟨t1, t2⟩; exact ⟨⟨by omega, by omega⟩, by omega, by omega⟩
          · intro ⟨⟨t1, t2⟩, t3, t4⟩
            constructor
            · rcases xl with xl | xl
              · rw [xl]; exact t1
              · rw [xl] at a ⊢; omega
            · rcases xh with xh | xh
              · rw [xh]; exact t2
              · rw [xh] at b ⊢; omega
        · have := hx.hi_lt_lo
          constructor
          · intro hc; exact absurd hc (hx.not_covers t)
          · intro ⟨⟨t1, t2⟩, t3, t4⟩
            exfalso
            have hd : u.hi < v.lo ∨ v.hi < u.lo := by rw [e1, e2] at this; omega
            rcases hd with hd | hd
            · have a := (ha.starts hvd hvd' (k := v.lo) (by omega) (by omega) (by omega)).1
              have b := mono (u.hi + 1) v.lo (by omega) (by omega) (by omega)
              omega
            · have a := (ha.starts hvd hvd' (k := v.hi) (by omega) (by omega) (by omega)).2
              have b := mono (v.hi + 1) u.lo (by omega) (by omega) (by omega)
              omega
      · have hvoid : ¬ x.Covers tb t := by
          have := hv.hi_lt_lo
          rcases h2.shape with px | hx
          · have := px.lo_le_hi
            have := h4 x.lo
            omega
          · exact hx.not_covers t
        exact ⟨fun hc => absurd hc hvoid, fun hc => absurd hc.2 (hv.not_covers t)⟩
    · have hvoid : ¬ x.Covers tb t := by
        have := hu.hi_lt_lo
        rcases h2.shape with px | hx
        · have := px.lo_le_hi
          have := h4 x.lo
          omega
        · exact hx.not_covers t
      exact ⟨fun hc => absurd hc hvoid, fun hc => absurd hc.1 (hu.not_covers t)⟩

/-- Two intervals select the same part of an index if it has nothing between their ends. -/
theorem findBounds_cut {v w : Interval L} {idx : List Int} (hs : idx.Pairwise (· < ·)) (hv : v.lo ≤ v.hi) (hw : w.lo ≤ w.hi) (e : w.lo = v.lo)
    (hi : ∀ x ∈ idx, x ≤ v.hi ↔ x ≤ w.hi) : (v.findBounds idx = none ∧ w.findBounds idx = none) ∨
      ∃ a b a' b', v.findBounds idx = some (a, b) ∧ w.findBounds idx = some (a', b') ∧ b - a = b' - a' := by
  have hf : idx.filter (fun x => decide (v.lo ≤ x) && decide (x ≤ v.hi)) = idx.filter (fun x => decide (w.lo ≤ x) && decide (x ≤ w.hi)) := by
    apply List.filter_congr
    intro x hx
    rw [e, decide_eq_decide.2 (hi x hx)]
  rcases findBounds_spec hs hv with ⟨h1, h2⟩ | ⟨a, b, h1, h2, h3, h4, h5⟩
  · rcases findBounds_spec hs hw with ⟨g1, _⟩ | ⟨a', b', g1, g2, g3, g4, g5⟩
    · exact .inl ⟨h1, g1⟩
    · exfalso
      rw [← hf, h2] at g5
      have := congrArg List.length g5
      have := length_slice g2 g3 g4
      simp only [List.length_nil] at *
      omega
  · rcases findBounds_spec hs hw with ⟨g1, g2⟩ | ⟨a', b', g1, g2, g3, g4, g5⟩
    · exfalso
      rw [hf, g2] at h5
      have := congrArg List.length h5
      have := length_slice h2 h3 h4
      simp only [List.length_nil] at *
      omega
    · refine .inr ⟨a, b, a', b', h1, g1, ?_⟩
      have e1 := length_slice h2 h3 h4
      have e2 := length_slice g2 g3 g4
      rw [h5, hf, ← g5, e2] at e1
      omega

/-- **C103**, portions: the portion of an interval of another timeboard is that of the interval of the same timeboard which has the workshifts with the same
numbers, as far as there are such. -/
theorem C103_portion {tb tb' : Timeboard L} (h : tb.Reachable) (h' : tb'.Reachable) {u v v' : Interval L} (hu : tb.HasInterval u) (hv : tb'.HasInterval v)
    (hvoid : v.isVoid = false) {s : Option (Schedule L)} (hs : tb.OwnsOpt s) {d : Duty} (hd : d = .on ∨ d = .off)
    (hn : Interval.new tb (v.lo, min v.hi (tb.timeline.len - 1)) = .ok v') :
    u.whatPortionOfOther tb v tb' d s = u.whatPortionOf tb v' d s := by
  have hvd := h.valid
  have fu := hu.fine hvd
  have fv := hv.fine h'.valid
  have pv : v.Proper tb' := by
    rcases fv.shape with p | q
    · exact p
    · rw [q.void] at hvoid; cases hvoid
  obtain ⟨n1, n2, n3, n4⟩ := Interval.new_ok_iff.1 hn
  have ho := owns_getD_fine fu hs
  have e1 : v'.lo = v.lo := by rw [n4]
  have e2 : v'.hi = min v.hi (tb.timeline.len - 1) := by rw [n4]
  have e3 : v'.isVoid = false := by rw [n4]
  unfold Interval.whatPortionOfOther Interval.whatPortionOf
  by_cases hvu : u.isVoid = true
  · simp only [hvu, if_true]
  · have hvu : u.isVoid = false := by simpa using hvu
    simp only [hvu, Bool.false_eq_true, if_false]
    have hlt := fu.lt
    have ov : u.overlap tb v (some (s.getD u.schedule)) = u.overlap tb v' (some (s.getD u.schedule)) := by
      unfold Interval.overlap
      simp only [hvu, Bool.false_eq_true, if_false]
      rw [e1, e2, show min u.hi (min v.hi (tb.timeline.len - 1)) = min u.hi v.hi by omega]
    have hc : v.count tb' d (some (s.getD u.schedule)) = v'.count tb d (some (s.getD u.schedule)) := by
      unfold Interval.count
      simp only [hvoid, e3, Bool.false_eq_true, if_false, Option.getD_some]
      have hle := pv.lo_le_hi
      have hidx : ∀ idx : List Int, idx.Pairwise (· < ·) → (∀ x ∈ idx, x < tb.timeline.len) →
          (v.findBounds idx = none ∧ v'.findBounds idx = none) ∨
          ∃ a b a' b', v.findBounds idx = some (a, b) ∧ v'.findBounds idx = some (a', b') ∧ b - a = b' - a' := by
        intro idx h1 h2
        refine findBounds_cut h1 hle (by rw [e1, e2]; exact n2) e1 ?_
        intro x hx
        have := h2 x hx
        rw [e2]
        omega
      have hpos : ∀ d, ∀ x ∈ tb.dutyPositions (s.getD u.schedule).selector d 0 (tb.timeline.len - 1), x < tb.timeline.len := by
        intro d x hx
        have := Timeboard.mem_dutyPositions.1 hx
        omega
      rcases hd with rfl | rfl
      · simp only [Interval.dutyIdx]
        rw [hvd.onIdx_eq ho]
        rcases hidx _ (tb.pairwise_dutyPositions _ _ _ _) (hpos _) with ⟨g1, g2⟩ | ⟨a, b, a', b', g1, g2, g3⟩
        · rw [g1, g2]
        · rw [g1, g2]; simp only; rw [g3]
      · simp only [Interval.dutyIdx]
        rw [hvd.offIdx_eq ho]
        rcases hidx _ (tb.pairwise_dutyPositions _ _ _ _) (hpos _) with ⟨g1, g2⟩ | ⟨a, b, a', b', g1, g2, g3⟩
        · rw [g1, g2]
        · rw [g1, g2]; simp only; rw [g3]
    rw [ov, hc]

/-- **C103**, the ready-made calendars: any two of them which begin with the same day are aligned. -/
theorem C103_calendars {c c' : Calendar} (hc : Preconfigured c) (hc' : Preconfigured c') {cs ce cs' ce' : Option Time} {dna oc dna' oc' : Bool}
    {custom custom' : Option (List (Time × Int))} {heap heap' : Heap Int} {tb tb' : Timeboard Int} (h : c.new cs ce dna oc custom heap = .ok tb)
    (h' : c'.new cs' ce' dna' oc' custom' heap' = .ok tb') : tb.Aligned tb' ↔ tb.startTime = tb'.startTime := by
  obtain ⟨hr, _, _⟩ := hc.facts h
  obtain ⟨hr', _, _⟩ := hc'.facts h'
  have hv := hr.valid
  have hv' := hr'.valid
  have s0 : tb.timeline.frame.unitStart (tb.timeline.bnd 0) = tb.startTime := by rw [hv.wf.bnd_zero]; rfl
  have s0' : tb'.timeline.frame.unitStart (tb'.timeline.bnd 0) = tb'.startTime := by rw [hv'.wf.bnd_zero]; rfl
  constructor
  · intro ha
    have := (ha.starts hv hv' (Int.le_refl 0) hv.wf.len_pos hv'.wf.len_pos).1
    rwa [s0, s0'] at this
  · intro he k w w' h0 hw hw'
    have beyond : ∀ (b : Timeboard Int) (k : Int), b.Valid → b.timeline.len ≤ k → Workshift.new b k = .error .outOfBounds := by
      intro b k hb hk
      unfold Workshift.new Timeline.label
      rw [pyGet?_ge _ (by have := hb.wf.labels_len; unfold Timeline.len at hk; omega)]
      rfl
    have hk : k < tb.timeline.len := by
      rcases Int.lt_or_le k tb.timeline.len with hk | hk
      · exact hk
      · rw [beyond tb k hv hk] at hw; cases hw
    have hk' : k < tb'.timeline.len := by
      rcases Int.lt_or_le k tb'.timeline.len with hk' | hk'
      · exact hk'
      · rw [beyond tb' k hv' hk'] at hw'; cases hw'
    obtain ⟨w1, a1, _, _, _, a2, a3, _⟩ := Workshift.exists_of_range hv none h0 hk
    obtain ⟨w2, b1, _, _, _, b2, b3, _⟩ := Workshift.exists_of_range hv' none h0 hk'
    rw [a1] at hw; cases hw
    rw [b1] at hw'; cases hw'
    rw [a2, a3, b2, b3, hc.grid' h h0 (by omega), hc.grid' h (show 0 ≤ k + 1 by omega) (by omega), hc'.grid' h' h0 (by omega),
      hc'.grid' h' (show 0 ≤ k + 1 by omega) (by omega), he]
    exact ⟨rfl, rfl⟩

theorem bind_inv {α β : Type} {x : Except Err α} {f : α → Except Err β} {r : β} (h : (x >>= f) = .ok r) : ∃ a, x = .ok a ∧ f a = .ok r := by
  cases x with
  | error e => cases h
  | ok a => exact ⟨a, rfl, h⟩

/-- **C103**, the claim fails in general: January 2017 in the American calendar of that month and February in the Russian calendar of 2017 have no moment in
common (the second one is given by numbers 0 to 27 of a calendar which begins in February), but their overlap is not void; and it is void for two intervals
which are the same day. -/
theorem C103_negation : ∃ (us ru : Timeboard Int) (u v u' v' x y : Interval Int), (usCalendar).new (some (date 2017 1 1)) (some (date 2017 3 31)) = .ok us ∧
    (ruCalendar).new (some (date 2017 2 1)) (some (date 2017 3 31)) = .ok ru ∧
    us.getInterval (some (.pair (some (date 2017 1 1)) (some (date 2017 1 31)))) = .ok u ∧
    ru.getInterval (some (.pair (some (date 2017 2 1)) (some (date 2017 2 28)))) = .ok v ∧ u.overlap us v = .ok x ∧ x.isVoid = false ∧
    (∀ t, ¬ (u.Covers us t ∧ v.Covers ru t)) ∧
    us.getInterval (some (.pair (some (date 2017 3 1)) (some (date 2017 3 1)))) = .ok u' ∧
    ru.getInterval (some (.pair (some (date 2017 3 1)) (some (date 2017 3 1)))) = .ok v' ∧ u'.overlap us v' = .ok y ∧ y.isVoid = true ∧
    (∃ t, u'.Covers us t ∧ v'.Covers ru t) := by
  have key : (do
      let us ← (usCalendar).new (some (date 2017 1 1)) (some (date 2017 3 31))
      let ru ← (ruCalendar).new (some (date 2017 2 1)) (some (date 2017 3 31))
      let u ← us.getInterval (some (.pair (some (date 2017 1 1)) (some (date 2017 1 31))))
      let v ← ru.getInterval (some (.pair (some (date 2017 2 1)) (some (date 2017 2 28))))
      let x ← u.overlap us v
      let u' ← us.getInterval (some (.pair (some (date 2017 3 1)) (some (date 2017 3 1))))
      let v' ← ru.getInterval (some (.pair (some (date 2017 3 1)) (some (date 2017 3 1))))
      let y ← u'.overlap us v'
      let b ← u.endTime us
      let a ← v.startTime ru
      let a1 ← u'.startTime us
      let b1 ← u'.endTime us
      let a2 ← v'.startTime ru
      let b2 ← v'.endTime ru
      return (x.isVoid, y.isVoid, [b, a, a1, b1, a2, b2])) = Except.ok (false, true, [some (date 2017 2 1 - 1), some (date 2017 2 1),
        some (date 2017 3 1), some (date 2017 3 2 - 1), some (date 2017 3 1), some (date 2017 3 2 - 1)]) := by decide +kernel
  obtain ⟨us, e1, key⟩ := bind_inv key
  obtain ⟨ru, e2, key⟩ := bind_inv key
  obtain ⟨u, e3, key⟩ := bind_inv key
  obtain ⟨v, e4, key⟩ := bind_inv key
  obtain ⟨x, e5, key⟩ := bind_inv key
  obtain ⟨u', e6, key⟩ := bind_inv key
  obtain ⟨v', e7, key⟩ := bind_inv key
  obtain ⟨y, e8, key⟩ := bind_inv key
  obtain ⟨b, e9, key⟩ := bind_inv key
  obtain ⟨a, e10, key⟩ := bind_inv key
  obtain ⟨a1, e11, key⟩ := bind_inv key
  obtain ⟨b1, e12, key⟩ := bind_inv key
  obtain ⟨a2, e13, key⟩ := bind_inv key
  obtain ⟨b2, e14, key⟩ := bind_inv key
  have key : (x.isVoid, y.isVoid, [b, a, a1, b1, a2, b2]) = (false, true, [some (date 2017 2 1 - 1), some (date 2017 2 1),
        some (date 2017 3 1), some (date 2017 3 2 - 1), some (date 2017 3 1), some (date 2017 3 2 - 1)]) := Except.ok.inj key
  simp only [Prod.mk.injEq, List.cons.injEq, and_true] at key
  obtain ⟨k1, k2, k3, k4, k5, k6, k7, k8⟩ := key
  subst k3 k4 k5 k6 k7 k8
  have hd : date 2017 3 1 ≤ date 2017 3 2 - 1 := by decide
  refine ⟨us, ru, u, v, u', v', x, y, e1, e2, e3, e4, e5, k1, ?_, e6, e7, e8, k2, date 2017 3 1, ⟨_, _, e11, e12, Int.le_refl _, hd⟩, ⟨_, _, e13, e14, Int.le_refl _, hd⟩⟩
  rintro t ⟨⟨p, q, _, h2, _, h4⟩, r, z, h5, _, h7, _⟩
  rw [e9] at h2
  rw [e10] at h5
  injection h2 with h2
  injection h2 with h2
  injection h5 with h5
  injection h5 with h5
  omega

/-- The hypotheses of `C103_calendars`, `C103_aligned_partial` and `C103_portion` are met: December in the American calendar and the last week of the year in the
British one of the same range; on 26 December one works in America only, which is what the schedule of the first interval says. -/
example : (do
    let us ← (usCalendar).new (some (date 2017 12 1)) (some (date 2017 12 31))
    let uk ← (ukCalendar).new (some (date 2017 12 1)) (some (date 2018 1 31))
    let u ← us.getInterval (some (.pair (some (date 2017 12 1)) (some (date 2017 12 29))))
    let v ← uk.getInterval (some (.pair (some (date 2017 12 25)) (some (date 2017 12 31))))
    let x ← u.overlap us v
    let v' ← Interval.new us (v.lo, min v.hi (us.timeline.len - 1))
    let n ← x.count us
    let q ← u.whatPortionOfOther us v uk
    let q' ← u.whatPortionOf us v'
    return (decide (us.startTime = uk.startTime), x.lo, x.hi, n, q, q')) = .ok (true, 24, 28, 4, 1, 1) := by decide +kernel

/-- An interval beyond the numbers of the other timeboard. -/
example : (do
    let us ← (usCalendar).new (some (date 2017 12 1)) (some (date 2017 12 31))
    let uk ← (ukCalendar).new (some (date 2017 12 1)) (some (date 2018 1 31))
    let u ← us.getInterval (some (.pair (some (date 2017 12 1)) (some (date 2017 12 29))))
    let v ← uk.getInterval (some (.pair (some (date 2018 1 25)) (some (date 2018 1 31))))
    let x ← u.overlap us v
    return x.lo) = Except.error .outOfBounds := by decide +kernel

end TB
