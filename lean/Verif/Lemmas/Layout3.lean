import Verif.Lemmas.Layout2
import Verif.Lemmas.GetInterval
/-! From layouts to timeboards. -/
namespace TB
variable {L : Type}

/-- A timeboard is built whenever its layout can be applied. -/
theorem Timeboard.new_of_run {a : Args L} {heap : Heap L} {org : Layout L} {f : Frame} {st : TLState L} (ha : a.amendments = [])
    (h1 : makeOrganizer a.layout = .ok org) (h2 : a.worktimeSource ∈ ["duration", "labels"])
    (h3 : Frame.new a.freq a.start a.stop = .ok f)
    (h4 : Layout.run f org { first := 0, last := (f.n : Int) - 1 } (TLState.init a.defaultLabel heap) = .ok st) :
    ∃ tb, Timeboard.new a heap = .ok (tb, st.heap) := by
  unfold TLState.init at h4
  have h5 : ∃ tl, Timeline.new f (some org) a.refEnd a.defaultLabel heap = .ok (tl, st.heap) := by
    unfold Timeline.new
    simp only [h4]
    exact ⟨_, rfl⟩
  obtain ⟨tl, h5⟩ := h5
  exact ⟨_, Timeboard.new_ok_iff.2 ⟨org, f, tl, tl, h1, h2, h3, h5, by rw [ha]; rfl, rfl⟩⟩

/-- A timeboard is refused when its layout cannot be applied. -/
theorem Timeboard.new_of_run_error {a : Args L} {heap : Heap L} {org : Layout L} {f : Frame} {e : Err}
    (h1 : makeOrganizer a.layout = .ok org) (h2 : a.worktimeSource ∈ ["duration", "labels"])
    (h3 : Frame.new a.freq a.start a.stop = .ok f)
    (h4 : Layout.run f org { first := 0, last := (f.n : Int) - 1 } (TLState.init a.defaultLabel heap) = .error e) :
    Timeboard.new a heap = .error e := by
  unfold TLState.init at h4
  have h5 : Timeline.new f (some org) a.refEnd a.defaultLabel heap = .error e := by
    unfold Timeline.new
    simp only [h4]
  unfold Timeboard.new
  rw [h1]
  simp only [h2, not_true_eq_false, if_false, h3, h5]

/-- The workshift found at a time within a workshift which starts at a base unit. -/
theorem Timeboard.Starts.getWorkshift {tb : Timeboard L} (h : tb.Reachable) {i d : Int} {l : L}
    (hs : tb.Starts (tb.timeline.frame.unitStart i) d l) {t : Time}
    (h1 : tb.timeline.frame.unitStart i ≤ t) (h2 : t < tb.timeline.frame.unitStart (i + d)) (sch : Option (Schedule L)) :
    ∃ w, tb.getWorkshift t sch = .ok w ∧ w.label = l ∧ w.startTime tb = .ok (tb.timeline.frame.unitStart i) ∧ w.duration tb = .ok d := by
  have hv := h.valid
  obtain ⟨k, w, k0, k1, hw, hst, hd, hl⟩ := hs
  obtain ⟨w', hw', _, _, hlab, hs', _, _, hd'⟩ := Workshift.exists_of_range hv none k0 k1
  cases Workshift.ext_new hw hw'
  rw [hs'] at hst; rw [hd'] at hd
  simp only [Except.ok.injEq] at hst hd
  have hb : tb.timeline.bnd k = i := by
    have a1 := Frame.unitStart_le_iff (f := tb.timeline.frame) (i := tb.timeline.bnd k) (j := i)
    have a2 := Frame.unitStart_le_iff (f := tb.timeline.frame) (i := i) (j := tb.timeline.bnd k)
    omega
  have hb2 : tb.timeline.bnd (k + 1) = i + d := by omega
  have hp : tb.timeline.wsPosition t = .ok k := (hv.wf.wsPosition_ok_iff t k).2 ⟨k0, k1, by rw [hb]; exact h1, by rw [hb2]; exact h2⟩
  obtain ⟨w2, hw2, _, _, hlab2, hs2, _, _, hd2⟩ := Workshift.exists_of_range hv sch k0 k1
  refine ⟨w2, ?_, ?_, by rw [hs2, hb], by rw [hd2, hb, hb2]; congr 1; omega⟩
  · unfold Timeboard.getWorkshift
    rw [hv.locate_at (hv.at_iff.2 hp)]; exact hw2
  · rw [hlab] at hlab2
    simp only [Except.ok.injEq] at hlab2
    rw [← hlab2, hl]

/-! ### Tilings by index -/

theorem Tiles.get_next {a b : Int} {ss : List Span} (h : Tiles a b ss) {k : Nat} {x : Span} (hk : ss[k]? = some x) :
    (k + 1 = ss.length ∧ x.last = b) ∨ ∃ y, ss[k + 1]? = some y ∧ y.first = x.last + 1 := by
  induction ss generalizing a k with
  | nil => exact h.elim
  | cons s ss ih =>
    cases ss with
    | nil =>
      cases k with
      | zero => simp at hk; subst hk; exact .inl ⟨rfl, h.2.1⟩
      | succ k => simp at hk
    | cons t r =>
      obtain ⟨h1, h2, h3⟩ := h
      cases k with
      | zero =>
        simp at hk; subst hk
        right
        refine ⟨t, rfl, ?_⟩
        cases r <;> exact h3.1
      | succ k =>
        rw [List.getElem?_cons_succ] at hk
        rcases ih h3 hk with ⟨g1, g2⟩ | ⟨y, hy, g⟩
        · left; exact ⟨by simp at g1 ⊢; omega, g2⟩
        · right; exact ⟨y, by rw [List.getElem?_cons_succ]; exact hy, g⟩

theorem Tiles.cover {a b : Int} {ss : List Span} (h : Tiles a b ss) {i : Int} (h1 : a ≤ i) (h2 : i ≤ b) :
    ∃ (k : Nat) (x : Span), ss[k]? = some x ∧ x.first ≤ i ∧ i ≤ x.last := by
  induction ss generalizing a with
  | nil => exact h.elim
  | cons s ss ih =>
    cases ss with
    | nil =>
      obtain ⟨e1, e2, _⟩ := h
      exact ⟨0, s, rfl, by omega, by omega⟩
    | cons t r =>
      obtain ⟨e1, e2, e3⟩ := h
      rcases Int.lt_or_le s.last i with hc | hc
      · obtain ⟨k, x, hk, hx⟩ := ih e3 (by omega)
        exact ⟨k + 1, x, by rw [List.getElem?_cons_succ]; exact hk, hx⟩
      · exact ⟨0, s, rfl, by omega, hc⟩

theorem Tiles.first_zero {a b : Int} {ss : List Span} (h : Tiles a b ss) {x : Span} (hx : ss[0]? = some x) : x.first = a := by
  cases ss with
  | nil => simp at hx
  | cons s ss =>
    simp at hx; subst hx
    cases ss <;> exact h.1

theorem Tiles.lt_of_index {a b : Int} {ss : List Span} (h : Tiles a b ss) {j k : Nat} {x y : Span} (hjk : j < k)
    (hj : ss[j]? = some x) (hk : ss[k]? = some y) : x.last < y.first := by
  induction ss generalizing a j k with
  | nil => exact h.elim
  | cons s ss ih =>
    cases k with
    | zero => omega
    | succ k =>
      rw [List.getElem?_cons_succ] at hk
      cases ss with
      | nil => simp at hk
      | cons t r =>
        obtain ⟨h1, h2, h3⟩ := h
        cases j with
        | zero =>
          simp at hj; subst hj
          have := h3.mem (List.mem_of_getElem? hk)
          omega
        | succ j =>
          rw [List.getElem?_cons_succ] at hj
          exact ih h3 (by omega) hj hk

/-- Spans of a tiling do not overlap. -/
theorem Tiles.disjoint {a b : Int} {ss : List Span} (h : Tiles a b ss) {j k : Nat} {x y : Span} {i : Int}
    (hj : ss[j]? = some x) (hk : ss[k]? = some y) (h1 : x.first ≤ i) (h2 : i ≤ x.last) (h3 : y.first ≤ i) (h4 : i ≤ y.last) : j = k := by
  rcases Nat.lt_trichotomy j k with hc | hc | hc
  · have := h.lt_of_index hc hj hk; omega
  · exact hc
  · have := h.lt_of_index hc hk hj; omega

/-! ### Structures consisting of labels -/

theorem runAll_labels (f : Frame) (ls : List L) : Layout.runAll f (ls.map Layout.label) = ls.map makeCompound := by
  induction ls with
  | nil => simp [Layout.runAll]
  | cons l ls ih => simp [Layout.runAll, Layout.run, ih]

theorem cyclic_map {M : Type} (g : L → M) (xs : List L) (p : Nat) : cyclic (xs.map g) p = (cyclic xs p).map g := by
  unfold cyclic; simp

theorem cyclic_some {xs : List L} (h : xs ≠ []) (p : Nat) : ∃ x, cyclic xs p = some x :=
  ⟨_, List.getElem?_eq_getElem (Nat.mod_lt _ (List.length_pos_iff.2 h))⟩

theorem zipRun_labels {ls : List L} : ∀ (ss : List Span) {a b : Int} {c : Cycle (Step L)} {p : Nat} {st : TLState L},
    c.HandedOut (ls.map makeCompound) p → Tiles a b ss →
    ∃ st', zipRun ss c st = .ok st' ∧ st'.heap = st.heap ∧
      (∀ i, (i < a ∨ b < i) → st'.labels i = st.labels i ∧ st'.mask i = st.mask i) ∧
      ∀ (k : Nat) (x : Span), ss[k]? = some x → some (st'.labels x.first) = cyclic ls (p + k) ∧
        st'.mask x.first = st.mask x.first ∧ ∀ j, x.first < j → j ≤ x.last → st'.mask j = false := by
  intro ss
  induction ss with
  | nil => intro a b c p st hc ht; exact ht.elim
  | cons s ss ih =>
    intro a b c p st hc ht
    have hm := ht.mem (List.mem_cons_self : s ∈ s :: ss)
    have hf : s.first = a := by cases ss <;> exact ht.1
    obtain ⟨step, c', h1, h2, h3⟩ := hc.next
    rw [cyclic_map] at h2
    obtain ⟨l, hl, rfl⟩ := Option.map_eq_some_iff.1 h2
    obtain ⟨st1, he⟩ : ∃ st1, makeCompound l s st = .ok st1 := ⟨_, rfl⟩
    have hloc := makeCompound_local l s st st1 hm.2.1 he
    have e : st1.heap = st.heap ∧ st1.labels s.first = l ∧ ∀ j, s.first < j → j ≤ s.last → st1.mask j = false := by
      simp only [makeCompound, Except.ok.injEq] at he
      subst he
      refine ⟨rfl, by simp, fun j hj1 hj2 => ?_⟩
      simp only
      rw [if_pos (by omega)]
    obtain ⟨e1, e2, e3⟩ := e
    unfold zipRun
    rw [h1]
    simp only [he]
    cases ss with
    | nil =>
      simp only [zipRun]
      have hlast : s.last = b := ht.2.1
      refine ⟨st1, rfl, e1, fun i hi => hloc.1 i (by omega), ?_⟩
      intro k x hk
      cases k with
      | zero =>
        simp at hk; subst hk
        exact ⟨by rw [e2, Nat.add_zero, hl], hloc.2, e3⟩
      | succ k => simp at hk
    | cons t r =>
      obtain ⟨_, g2, g3⟩ := ht
      obtain ⟨st2, k1, k2, k3, k4⟩ := ih (st := st1) h3 g3
      have hb := g3.le
      refine ⟨st2, k1, by rw [k2, e1], ?_, ?_⟩
      · intro i hi
        rw [(k3 i (by omega)).1, (k3 i (by omega)).2]
        exact hloc.1 i (by omega)
      · intro k x hk
        cases k with
        | zero =>
          simp at hk; subst hk
          have q := k3 s.first (.inl (by omega))
          refine ⟨by rw [q.1, e2, Nat.add_zero, hl], by rw [q.2]; exact hloc.2, ?_⟩
          intro j hj1 hj2
          rw [(k3 j (.inl (by omega))).2]; exact e3 j hj1 hj2
        | succ k =>
          rw [List.getElem?_cons_succ] at hk
          obtain ⟨m1, m2, m3⟩ := k4 k x hk
          have hx := g3.mem (List.mem_of_getElem? hk)
          refine ⟨by rw [m1]; congr 1; omega, ?_, m3⟩
          rw [m2]; exact (hloc.1 _ (.inr (by omega))).2

/-- The workshifts of a timeboard whose layout is an organizer with a structure of labels. -/
theorem Timeboard.labels_organizer {a : Args L} {heap : Heap L} {cut : Cut} {ls : List L} {f : Frame} {ss : List Span}
    (ha : a.amendments = []) (hlay : a.layout = .organizer cut (ls.map .label)) (hls : ls ≠ [])
    (hw : a.worktimeSource ∈ ["duration", "labels"])
    (hf : Frame.new a.freq a.start a.stop = .ok f) (hc : f.cutSpan cut { first := 0, last := (f.n : Int) - 1 } = .ok ss) :
    ∃ tb, Timeboard.new a heap = .ok (tb, heap) ∧ tb.timeline.frame = f ∧
      ∀ t d l, tb.Starts t d l ↔ ∃ (k : Nat) (x : Span), ss[k]? = some x ∧ t = f.unitStart x.first ∧ d = x.last - x.first + 1 ∧
        cyclic ls k = some l := by
  have hn := Frame.new_valid hf
  unfold Frame.Valid at hn
  obtain ⟨_, _, htl⟩ := Frame.cutSpan_tiles hc
  simp only at htl
  have hne : ls.map makeCompound ≠ [] := by simpa using hls
  obtain ⟨st, r1, r2, r3, r4⟩ := zipRun_labels ss (st := TLState.init a.defaultLabel heap) (Cycle.handedOut_start hne) htl
  have hrun : Layout.run f (.organizer cut (ls.map .label)) { first := 0, last := (f.n : Int) - 1 } (TLState.init a.defaultLabel heap) = .ok st := by
    simp only [Layout.run, hc, runAll_labels]
    exact r1
  have horg : makeOrganizer a.layout = .ok (.organizer cut (ls.map .label)) := by rw [hlay]; rfl
  obtain ⟨tb, htb⟩ := Timeboard.new_of_run ha horg hw hf hrun
  obtain ⟨org', f', st', p1, p2, p3, p4, p5, p6, p7, p8⟩ := Timeboard.starts_iff ha htb
  rw [horg] at p1; cases p1
  rw [hf] at p2; cases p2
  rw [hrun] at p5; cases p5
  have hheap : st.heap = heap := r2
  rw [hheap] at htb
  refine ⟨tb, htb, p4, ?_⟩
  intro t d l
  rw [p8]
  have hfirst : ∀ (k : Nat) (x : Span), ss[k]? = some x → st.mask x.first = true := by
    intro k x hk; rw [(r4 k x hk).2.1]; rfl
  constructor
  · rintro ⟨i, i0, id, d1, ht, hmi, hl, hbt, hnx⟩
    obtain ⟨k, x, hk, hx1, hx2⟩ := htl.cover (i := i) (by omega) (by omega)
    obtain ⟨m1, m2, m3⟩ := r4 k x hk
    have hxi : x.first = i := by
      rcases Int.lt_or_eq_of_le hx1 with hc | hc
      · have := m3 i hc hx2; rw [hmi] at this; cases this
      · exact hc
    have hxm := htl.mem (List.mem_of_getElem? hk)
    have hd : d = x.last - x.first + 1 := by
      rcases htl.get_next hk with ⟨_, hlast⟩ | ⟨y, hy, hyf⟩
      · rcases Int.lt_or_le (i + d) f.n with hc | hc
        · have := hnx hc
          rw [m3 (i + d) (by omega) (by omega)] at this; cases this
        · omega
      · have hym := htl.mem (List.mem_of_getElem? hy)
        have hyt := hfirst _ _ hy
        rcases Int.lt_trichotomy (i + d) y.first with hc | hc | hc
        · have := hnx (by omega)
          rw [m3 (i + d) (by omega) (by omega)] at this; cases this
        · omega
        · have := hbt y.first (by omega) hc
          rw [hyt] at this; cases this
    exact ⟨k, x, hk, by rw [hxi]; exact ht, hd, by rw [hl, ← hxi, m1]; congr 1; omega⟩
  · rintro ⟨k, x, hk, ht, hd, hl⟩
    obtain ⟨m1, m2, m3⟩ := r4 k x hk
    have hxm := htl.mem (List.mem_of_getElem? hk)
    refine ⟨x.first, by omega, by omega, by omega, ht, hfirst k x hk, ?_, ?_, ?_⟩
    · have : some (st.labels x.first) = some l := by rw [m1, ← hl]; congr 1; omega
      simpa using this.symm
    · intro j hj1 hj2; exact m3 j hj1 (by omega)
    · intro hlt
      rcases htl.get_next hk with ⟨_, hlast⟩ | ⟨y, hy, hyf⟩
      · omega
      · have := hfirst _ _ hy
        have e : x.first + d = y.first := by omega
        rw [e]; exact this

/-! ### One plain pattern for all spans -/

theorem zipRun_pattern {xs : List L} (hx : xs ≠ []) : ∀ (ss : List Span) {a b : Int} {c : Cycle (Step L)} {p : Nat} {st : TLState L},
    c.HandedOut [applyPattern (.list xs)] p → Tiles a b ss → (∀ s ∈ ss, 0 ≤ s.skipLeft) →
    ∃ st', zipRun ss c st = .ok st' ∧ st'.heap = st.heap ∧ st'.mask = st.mask ∧
      (∀ i, (i < a ∨ b < i) → st'.labels i = st.labels i) ∧
      ∀ (x : Span), x ∈ ss → ∀ i, x.first ≤ i → i ≤ x.last →
        some (st'.labels i) = cyclic xs (x.skipLeft + (i - x.first)).toNat := by
  intro ss
  induction ss with
  | nil => intro a b c p st hc ht; exact ht.elim
  | cons s ss ih =>
    intro a b c p st hc ht hsk
    have hm := ht.mem (List.mem_cons_self : s ∈ s :: ss)
    have hf : s.first = a := by cases ss <;> exact ht.1
    obtain ⟨step, c', h1, h2, h3⟩ := hc.next
    have hstep : step = applyPattern (.list xs) := by
      unfold cyclic at h2
      simp [Nat.mod_one] at h2
      exact h2.symm
    subst hstep
    obtain ⟨st1, he, e1, e2, e3, e4⟩ := applyPattern_list hx (s := s) (st := st) (hsk s (by simp))
    unfold zipRun
    rw [h1]
    simp only [he]
    cases ss with
    | nil =>
      simp only [zipRun]
      have hlast : s.last = b := ht.2.1
      refine ⟨st1, rfl, e1, e2, fun i hi => e4 i (by omega), ?_⟩
      intro x hx i
      simp at hx; subst hx
      exact e3 i
    | cons t r =>
      obtain ⟨_, g2, g3⟩ := ht
      obtain ⟨st2, k1, k2, k3, k4, k5⟩ := ih (st := st1) h3 g3 (fun s hs => hsk s (List.mem_cons_of_mem _ hs))
      have hb := g3.le
      refine ⟨st2, k1, by rw [k2, e1], by rw [k3, e2], ?_, ?_⟩
      · intro i hi
        rw [k4 i (by omega)]
        exact e4 i (by omega)
      · intro x hx i hi1 hi2
        rcases List.mem_cons.1 hx with rfl | hx
        · rw [k4 i (.inl (by omega))]; exact e3 i hi1 hi2
        · exact k5 x hx i hi1 hi2

/-- The workshifts of a timeboard whose layout is an organizer with one plain pattern. -/
theorem Timeboard.pattern_organizer {a : Args L} {heap : Heap L} {cut : Cut} {xs : List L} {f : Frame} {ss : List Span} {org : Layout L}
    (ha : a.amendments = []) (horg : makeOrganizer a.layout = .ok org) (ho : org = .organizer cut [.pattern (.list xs)]) (hx : xs ≠ [])
    (hw : a.worktimeSource ∈ ["duration", "labels"])
    (hf : Frame.new a.freq a.start a.stop = .ok f) (hc : f.cutSpan cut { first := 0, last := (f.n : Int) - 1 } = .ok ss)
    (hsk : ∀ s ∈ ss, 0 ≤ s.skipLeft) :
    ∃ tb, Timeboard.new a heap = .ok (tb, heap) ∧ tb.timeline.frame = f ∧
      (∀ x ∈ ss, ∀ i, x.first ≤ i → i ≤ x.last → ∃ l, tb.Starts (f.unitStart i) 1 l ∧ cyclic xs (x.skipLeft + (i - x.first)).toNat = some l) := by
  have hn := Frame.new_valid hf
  unfold Frame.Valid at hn
  obtain ⟨_, _, htl⟩ := Frame.cutSpan_tiles hc
  simp only at htl
  have hne : [applyPattern (.list xs)] ≠ [] := by simp
  obtain ⟨st, r1, r2, r3, r4, r5⟩ := zipRun_pattern hx ss (st := TLState.init a.defaultLabel heap) (Cycle.handedOut_start hne) htl hsk
  have hrun : Layout.run f org { first := 0, last := (f.n : Int) - 1 } (TLState.init a.defaultLabel heap) = .ok st := by
    rw [ho]
    simp only [Layout.run, hc, Layout.runAll]
    exact r1
  obtain ⟨tb, htb⟩ := Timeboard.new_of_run ha horg hw hf hrun
  obtain ⟨org', f', st', p1, p2, p3, p4, p5, p6, p7, p8⟩ := Timeboard.starts_iff ha htb
  rw [horg] at p1; cases p1
  rw [hf] at p2; cases p2
  rw [hrun] at p5; cases p5
  have hheap : st.heap = heap := r2
  rw [hheap] at htb
  refine ⟨tb, htb, p4, ?_⟩
  intro x hx i h1 h2
  have hxm := htl.mem hx
  have hmask : ∀ j, st.mask j = true := by intro j; rw [r3]; rfl
  exact ⟨st.labels i, (p8 _ _ _).2 ⟨i, by omega, by omega, by omega, rfl, hmask i, rfl, fun j _ _ => by omega, fun _ => hmask _⟩,
    (r5 x hx i h1 h2).symm⟩

end TB
