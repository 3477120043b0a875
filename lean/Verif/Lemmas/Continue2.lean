import Verif.Lemmas.Continue
import Verif.Lemmas.MarkerHow
/-! Timeboards which differ in their ends only: from organized frames to workshifts. -/
namespace TB
variable {L : Type}

/-- Regular markers cut a longer span in the same places. -/
theorem steady_regular {f f' : Frame} (hf : f.Continued f') {m : Marker} (hr : checkGroupbyFreq f.freq m.each = true → m.Regular f.freq) :
    Cut.Steady f f' (.marker m) := by
  intro s s' ss' h1 h2 h3 h4 h5 h6 hc
  have hacc := Frame.cutSpan_unacceptable hc
  have hacc0 : checkGroupbyFreq f.freq m.each = true := hf.1 ▸ hacc
  have hr := hr hacc0
  obtain ⟨ts', x', g1, g2, g3, g4, g5⟩ := Frame.partition_regular (f := f') (s := s') (by rw [hf.1]; exact hr) hacc (by omega) (by omega) h6
  obtain ⟨ts, x, k1, k2, k3, k4, k5⟩ := Frame.partition_regular (f := f) (s := s) hr hacc0 h2 h3 h5
  have hcc : f'.partitionWithMarker s' m = .ok ss' := hc
  rw [g1] at hcc; cases hcc
  rw [hf.unitStart, hf.1, ← h1] at g5
  have hx := k5.unique g5
  subst hx
  refine ⟨ts, k1, sameStarts_of k2 g2 h1 k4 g4 ?_⟩
  intro i i1 i2
  rw [k3 i i1 i2, g3 i (by omega) (by omega), hf.unitStart, hf.1]

/-- The workshifts of the shorter frame come first. -/
theorem nonzeroMask_continues {m m' : Int → Bool} {n n' : Nat} (h : n ≤ n') (hm : ∀ j : Int, j ≤ (n : Int) - 1 → m j = m' j) :
    ∃ r, nonzeroMask m' n' = nonzeroMask m n ++ r ∧ ∀ x ∈ r, (n : Int) ≤ x := by
  obtain ⟨d, rfl⟩ := Nat.exists_eq_add_of_le h
  unfold nonzeroMask
  rw [List.range_add, List.map_append, List.filter_append]
  refine ⟨_, congrArg (· ++ _) ?_, ?_⟩
  · apply List.filter_congr
    intro x hx
    obtain ⟨i, hi, rfl⟩ := List.mem_map.1 hx
    rw [List.mem_range] at hi
    rw [hm _ (by omega)]
  · intro x hx
    have := (List.mem_filter.1 hx).1
    obtain ⟨i, hi, rfl⟩ := List.mem_map.1 this
    obtain ⟨j, hj, rfl⟩ := List.mem_map.1 hi
    omega

/-- The cuts which make an organizer of the layout as given. -/
theorem makeOrganizer_cuts {P : Cut → Prop} (h0 : P (.marks [])) {l org : Layout L} (h : l.CutsAll P) (hm : makeOrganizer l = .ok org) :
    org.CutsAll P := by
  cases l with
  | organizer c e => cases hm; exact h
  | organizerRP c i => cases hm; exact h
  | pattern p =>
    cases p with
    | list xs =>
      cases hm
      simp only [Layout.CutsAll, Layout.CutsAllL]
      exact ⟨h0, trivial, trivial⟩
    | rp i => cases hm
  | label l => cases hm

/-- Frames of the same start. -/
theorem Frame.new_continued {freq : Freq} {a b b' : Time} {f f' : Frame} (hb : b ≤ b') (h : Frame.new freq a b = .ok f)
    (h' : Frame.new freq a b' = .ok f') : f.Continued f' := by
  obtain ⟨h1, rfl⟩ := Frame.new_ok_iff.1 h
  obtain ⟨h2, rfl⟩ := Frame.new_ok_iff.1 h'
  refine ⟨rfl, rfl, ?_⟩
  have := freq.base.ordOf_mono hb
  have hm := freq.mult_pos
  have := Int.ediv_le_ediv (show (0 : Int) < (freq.mult : Int) by omega) (show freq.base.ordOf b - freq.base.ordOf a ≤ freq.base.ordOf b' - freq.base.ordOf a by omega)
  simp only
  omega

/-- The beginning of a timeline. -/
theorem Timeline.prefix {tl tl' : Timeline L} (wf : tl.WF) (wf' : tl'.WF) {r : List Int} {q : List L} (h1 : tl'.wsIdx = tl.wsIdx ++ r)
    (h2 : ∀ x ∈ r, (tl.frame.n : Int) ≤ x) (h3 : tl.frame.n ≤ tl'.frame.n) (h4 : tl'.labels = tl.labels ++ q) :
    tl.len ≤ tl'.len ∧ ∀ k, 0 ≤ k → k < tl.len → tl.bnd k = tl'.bnd k ∧ tl.label k = tl'.label k ∧
      (k + 1 < tl.len → tl.bnd (k + 1) = tl'.bnd (k + 1)) ∧
      (k + 1 = tl.len → tl.bnd (k + 1) = tl.frame.n ∧ (tl.frame.n : Int) ≤ tl'.bnd (k + 1)) := by
  have hlen : tl.len ≤ tl'.len := by unfold Timeline.len; rw [h1, List.length_append]; omega
  have hb : ∀ k, 0 ≤ k → k < tl.len → tl.bnd k = tl'.bnd k := by
    intro k k0 k1
    unfold Timeline.len at k1
    unfold Timeline.bnd
    rw [h1, List.getElem?_append_left (by omega), List.getElem?_eq_getElem (by omega)]
    rfl
  refine ⟨hlen, ?_⟩
  intro k k0 k1
  refine ⟨hb k k0 k1, ?_, fun h => hb (k + 1) (by omega) h, ?_⟩
  · obtain ⟨g1, g2⟩ := wf.label_eq k0 k1
    obtain ⟨g3, g4⟩ := wf'.label_eq k0 (show k < tl'.len by omega)
    rw [g2, g4]
    congr 1
    have : tl'.labels[k.toNat]? = tl.labels[k.toNat]? := by rw [h4, List.getElem?_append_left g1]
    rw [List.getElem?_eq_getElem g1, List.getElem?_eq_getElem g3] at this
    simp only [Option.some.injEq] at this
    exact this.symm
  · intro hk
    unfold Timeline.len at hk
    unfold Timeline.bnd
    refine ⟨by rw [List.getElem?_eq_none (by omega)]; rfl, ?_⟩
    rw [h1, List.getElem?_append_right (by omega)]
    cases hg : r[(k + 1).toNat - tl.wsIdx.length]? with
    | none => simp only [Option.getD_none]; omega
    | some x => exact h2 x (List.mem_of_getElem? hg)

/-- **A timeboard is the beginning of a longer one**, without amendments. -/
theorem Timeboard.new_prefix {a a' : Args L} {heap heap' : Heap L} {tb' : Timeboard L} {f f' : Frame} (hfit : heap.Fit)
    (ha : a.amendments = []) (hs : a' = { a with stop := a'.stop }) (hle : a.stop ≤ a'.stop)
    (hf : Frame.new a.freq a.start a.stop = .ok f) (hf' : Frame.new a.freq a.start a'.stop = .ok f')
    (hcut : ∀ org, makeOrganizer a.layout = .ok org → org.CutsAll (Cut.Steady f f'))
    (h' : Timeboard.new a' heap = .ok (tb', heap')) :
    ∃ tb heap1, Timeboard.new a heap = .ok (tb, heap1) ∧ tb.timeline.frame = f ∧ tb'.timeline.frame = f' ∧
      tb.timeline.refEnd = tb'.timeline.refEnd ∧ tb.timeline.len ≤ tb'.timeline.len ∧
      ∀ k, 0 ≤ k → k < tb.timeline.len → tb.timeline.bnd k = tb'.timeline.bnd k ∧ tb.timeline.label k = tb'.timeline.label k ∧
        (k + 1 < tb.timeline.len → tb.timeline.bnd (k + 1) = tb'.timeline.bnd (k + 1)) ∧
        (k + 1 = tb.timeline.len → tb.timeline.bnd (k + 1) = f.n ∧ (f.n : Int) ≤ tb'.timeline.bnd (k + 1)) := by
  have hcont := Frame.new_continued hle hf hf'
  have hn := Frame.new_valid hf
  unfold Frame.Valid at hn
  have hn' := hcont.2.2
  obtain ⟨org, f1, tl0, tl, h1, h2, h3, h4, h5, htb⟩ := Timeboard.new_ok_iff.1 h'
  have e1 : a'.layout = a.layout := by rw [hs]
  have e2 : a'.freq = a.freq := by rw [hs]
  have e3 : a'.start = a.start := by rw [hs]
  have e4 : a'.amendments = [] := by rw [hs]; exact ha
  have e5 : a'.refEnd = a.refEnd := by rw [hs]
  have e6 : a'.defaultLabel = a.defaultLabel := by rw [hs]
  have e7 : a'.worktimeSource = a.worktimeSource := by rw [hs]
  rw [e1] at h1
  rw [e2, e3, hf'] at h3; cases h3
  rw [e5, e6] at h4
  rw [e7] at h2
  rw [e4] at h5
  have h5' : tl0 = tl := by
    have := h5.symm.trans (show tl0.amend [] = .ok tl0 from rfl)
    simp only [Except.ok.injEq] at this; exact this.symm
  subst h5'
  have et : tb'.timeline = tl0 := by rw [htb]
  have wf' := (Timeboard.Reachable.new h').valid.wf
  rw [et] at wf' ⊢
  clear htb h5 et
  unfold Timeline.new at h4
  simp only at h4
  generalize hr : Layout.run f' org { first := 0, last := (f'.n : Int) - 1 }
      { labels := fun _ => a.defaultLabel, mask := fun _ => true, heap := heap } = res at h4
  cases res with
  | error e => simp at h4
  | ok st' =>
    simp only [Except.ok.injEq, Prod.mk.injEq] at h4
    obtain ⟨htl, hheap⟩ := h4
    obtain ⟨st, hst, hag, _⟩ := Layout.run_continues f f' org (hcut org h1) { first := 0, last := (f.n : Int) - 1 }
      { first := 0, last := (f'.n : Int) - 1 } { labels := fun _ => a.defaultLabel, mask := fun _ => true, heap := heap }
      { labels := fun _ => a.defaultLabel, mask := fun _ => true, heap := heap } st' rfl rfl (Int.le_refl _) (by simp only; omega)
      (by simp only; omega) (by simp only; omega) (by simp only; omega) (fun _ _ => ⟨rfl, rfl⟩) rfl hfit hr
    simp only at hag
    have hnew : Timeline.new f (some org) a.refEnd a.defaultLabel heap = .ok
        ({ frame := f, wsIdx := nonzeroMask st.mask f.n, labels := (nonzeroMask st.mask f.n).map st.labels
           frameband := maskedCounter st.mask f.n 0 0, refEnd := a.refEnd }, st.heap) := by
      unfold Timeline.new
      simp only [hst]
    obtain ⟨tb, htbn⟩ : ∃ tb, Timeboard.new a heap = .ok (tb, st.heap) := Timeboard.new_of_run ha h1 h2 hf hst
    have htl' : tb.timeline = { frame := f, wsIdx := nonzeroMask st.mask f.n, labels := (nonzeroMask st.mask f.n).map st.labels
                                frameband := maskedCounter st.mask f.n 0 0, refEnd := a.refEnd } := by
      obtain ⟨org2, f2, tl2, tl3, b1, b2, b3, b4, b5, hb⟩ := Timeboard.new_ok_iff.1 htbn
      rw [h1] at b1; cases b1
      rw [hf] at b3; cases b3
      rw [hnew] at b4
      rw [ha] at b5
      have := b5.symm.trans (show tl2.amend [] = .ok tl2 from rfl)
      simp only [Except.ok.injEq] at this
      simp only [Except.ok.injEq, Prod.mk.injEq] at b4
      rw [hb, this, ← b4.1]
    have wf := (Timeboard.Reachable.new htbn).valid.wf
    obtain ⟨r, hr1, hr2⟩ := nonzeroMask_continues (m := st.mask) (m' := st'.mask) hn' (fun j hj => (hag j hj).2)
    have hrange : (nonzeroMask st.mask f.n).map st.labels = (nonzeroMask st.mask f.n).map st'.labels := by
      apply List.map_congr_left
      intro j hj
      have := (mem_nonzeroMask _ _ _).1 hj
      exact (hag j (by omega)).1
    have hp := Timeline.prefix (tl := tb.timeline) (tl' := tl0) wf wf' (r := r) (q := r.map st'.labels) (by rw [htl', ← htl]; exact hr1)
      (by rw [htl']; exact hr2) (by rw [htl', ← htl]; exact hn') (by rw [htl', ← htl]; simp only; rw [hrange, hr1, List.map_append])
    refine ⟨tb, st.heap, htbn, by rw [htl'], by rw [← htl], by rw [htl', ← htl], hp.1, ?_⟩
    intro k k0 k1
    obtain ⟨p1, p2, p3, p4⟩ := hp.2 k k0 k1
    have ef : tb.timeline.frame = f := by rw [htl']
    rw [ef] at p4
    exact ⟨p1, p2, p3, p4⟩

end TB
