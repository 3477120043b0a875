import Verif.Lemmas.Continue
import Verif.Lemmas.MarkerHow
import Verif.Spec.Dangles
/-! Positions within a span of a regular marker are counted from the latest mark. -/
namespace TB
variable {L : Type}

theorem Marker.Regular.mark_unit {f : Frame} {m : Marker} (hr : m.Regular f.freq) (hfm : f.freq.mult = 1) {u : Time} (h : m.Mark f.freq u) :
    u = f.unitStart (f.freq.base.ordOf u - f.o0) := by
  obtain ⟨o, g, hg, ht⟩ := h
  obtain ⟨_, _, w⟩ := hr.within g hg o u ht
  unfold Frame.unitStart Frame.ord
  rw [hfm, show f.o0 + ((1 : Nat) : Int) * (f.freq.base.ordOf u - f.o0) = f.freq.base.ordOf u by omega]
  exact w

theorem regular_index {f : Frame} {m : Marker} {s : Span} {ss : List Span} {x0 : Int} (hr : m.Regular f.freq)
    (hfm : f.freq.mult = 1) (ht : Tiles s.first s.last ss)
    (hst : ∀ i, s.first < i → i ≤ s.last → ((∃ y ∈ ss, y.first = i) ↔ m.Mark f.freq (f.unitStart i)))
    (hsk : SkipsLeft x0 ss) (hd : m.LeftDangle f.freq (f.unitStart s.first) x0) (h0 : 0 ≤ x0)
    {x : Span} (hx : x ∈ ss) {i : Int} (h1 : x.first ≤ i) (h2 : i ≤ x.last) :
    0 ≤ x.skipLeft ∧ ∃ u, m.Latest f.freq (f.unitStart i) u ∧ x.skipLeft + (i - x.first) = f.ord i - f.freq.base.ordOf u := by
  have hxm := ht.mem hx
  have hord : ∀ j, f.ord j = f.ord 0 + j := by intro j; simp [Frame.ord, hfm]
  -- no marks inside
  have hno : ∀ u, m.Mark f.freq u → u ≤ f.unitStart i → u ≤ f.unitStart x.first := by
    intro u hu hui
    have e := hr.mark_unit hfm hu
    generalize f.freq.base.ordOf u - f.o0 = j at e
    subst e
    rw [Frame.unitStart_le_iff] at hui ⊢
    rcases Int.lt_or_le x.first j with hlt | hle
    · exfalso
      obtain ⟨y, hy, rfl⟩ := (hst j (by omega) (by omega)).2 hu
      obtain ⟨k, hk⟩ := List.getElem?_of_mem hx
      obtain ⟨k', hk'⟩ := List.getElem?_of_mem hy
      have hym := ht.mem hy
      have hkk := ht.disjoint (i := y.first) hk hk' (by omega) (by omega) (by omega) (by omega)
      subst hkk
      rw [hk] at hk'
      cases hk'
      omega
    · exact hle
  have hmono := Frame.unitStart_le_iff (f := f) (i := x.first) (j := i)
  have hself : f.freq.base.ordOf (f.unitStart x.first) = f.ord x.first := by unfold Frame.unitStart; rw [Base.ordOf_startOf]
  have e1 := hord i
  have e2 := hord x.first
  cases ss with
  | nil => cases hx
  | cons y r =>
    obtain ⟨s1, s2⟩ : y.skipLeft = x0 ∧ ∀ t ∈ r, t.skipLeft = 0 := hsk
    have hy := ht.head
    rcases List.mem_cons.1 hx with rfl | hx'
    · rw [s1]
      refine ⟨h0, ?_⟩
      rcases hd with ⟨hd, _⟩ | ⟨u, u1, u2, _, u4, u5⟩
      · omega
      · rw [hy.1] at hself e2 hno
        refine ⟨u, ⟨u1, ?_, fun u' hu' hle => u4 u' hu' (hno u' hu' hle)⟩, ?_⟩
        · rw [hy.1] at hmono; omega
        · rw [u5, hself, hy.1]; omega
    · rw [s2 x hx']
      refine ⟨Int.le_refl _, f.unitStart x.first, ⟨?_, by omega, hno⟩, by rw [hself]; omega⟩
      rcases ht.tail with ⟨rfl, _⟩ | ht'
      · cases hx'
      · have := ht'.mem hx'
        exact (hst x.first (by omega) (by omega)).1 ⟨x, hx, rfl⟩

theorem Marker.LeftDangle.nonneg {f : Frame} {m : Marker} {a : Time} {x : Int} (hd : m.LeftDangle f.freq a x) :
    (x = -1 ∧ ∀ t, m.Mark f.freq t → t ≤ a → m.each.base.ordOf t < m.each.base.ordOf (a - getFreqDelta m.each)) ∨
    (0 ≤ x ∧ ∃ t, m.Mark f.freq t ∧ t ≤ a ∧ m.each.base.ordOf (a - getFreqDelta m.each) ≤ m.each.base.ordOf t) := by
  rcases hd with h | ⟨u, u1, u2, u3, u4, u5⟩
  · exact .inl h
  · have := f.freq.base.ordOf_mono u2
    exact .inr ⟨by omega, u, u1, u2, u3⟩

theorem pairwise_lt_ext : ∀ {xs ys : List Int}, xs.Pairwise (· < ·) → ys.Pairwise (· < ·) → (∀ x, x ∈ xs ↔ x ∈ ys) → xs = ys
  | [], [], _, _, _ => rfl
  | [], y :: ys, _, _, h => by have := (h y).2 (by simp); cases this
  | x :: xs, [], _, _, h => by have := (h x).1 (by simp); cases this
  | x :: xs, y :: ys, h1, h2, h => by
    rw [List.pairwise_cons] at h1 h2
    have e : x = y := by
      have a1 := (h x).1 (by simp)
      have a2 := (h y).2 (by simp)
      rw [List.mem_cons] at a1 a2
      rcases a1 with a1 | a1
      · exact a1
      · rcases a2 with a2 | a2
        · exact a2.symm
        · have := h1.1 y a2
          have := h2.1 x a1
          omega
    subst e
    have : xs = ys := by
      refine pairwise_lt_ext h1.2 h2.2 (fun z => ?_)
      constructor
      · intro hz
        have := (h z).1 (by simp [hz])
        rcases List.mem_cons.1 this with rfl | h'
        · have := h1.1 z hz; omega
        · exact h'
      · intro hz
        have := (h z).2 (by simp [hz])
        rcases List.mem_cons.1 this with rfl | h'
        · have := h2.1 z hz; omega
        · exact h'
    rw [this]

theorem Tiles.pairwise_first {a b : Int} : ∀ {ss : List Span}, Tiles a b ss → (ss.map Span.first).Pairwise (· < ·) := by
  intro ss h
  rw [List.pairwise_map, List.pairwise_iff_getElem]
  intro i j hi hj hij
  have := h.lt_of_index hij (List.getElem?_eq_getElem hi) (List.getElem?_eq_getElem hj)
  have := h.mem (List.getElem_mem hi)
  omega

/-- Workshifts made of the spans of a partitioning come in the order of the spans. -/
theorem labels_position {tb : Timeboard L} (hR : tb.Reachable) {f : Frame} (hf : tb.timeline.frame = f) {ss : List Span} {ls : List L} {a b : Int}
    (ht : Tiles a b ss) (hls : ls ≠ [])
    (h : ∀ t d l, tb.Starts t d l ↔ ∃ (k : Nat) (x : Span), ss[k]? = some x ∧ t = f.unitStart x.first ∧ d = x.last - x.first + 1 ∧
        cyclic ls k = some l) {k : Int} (k0 : 0 ≤ k) (k1 : k < tb.timeline.len) :
    ∃ w x, Workshift.new tb k = .ok w ∧ ss[k.toNat]? = some x ∧ w.startTime tb = .ok (f.unitStart x.first) ∧ cyclic ls k.toNat = some w.label := by
  have hv := hR.valid
  have hall : ∀ j, 0 ≤ j → j < tb.timeline.len → ∃ (k' : Nat) (w : Workshift L) (x : Span), Workshift.new tb j = .ok w ∧ ss[k']? = some x ∧
      tb.timeline.bnd j = x.first ∧ cyclic ls k' = some w.label ∧ w.startTime tb = .ok (f.unitStart x.first) := by
    intro j j0 j1
    obtain ⟨w, hw, _, _, _, hs, _, _, hd⟩ := Workshift.exists_of_range hv none j0 j1
    rw [hf] at hs
    obtain ⟨k', x, g1, g2, g3, g4⟩ := (h _ _ _).1 ⟨j, w, j0, j1, hw, hs, hd, rfl⟩
    have e : tb.timeline.bnd j = x.first := by
      have a1 := Frame.unitStart_le_iff (f := f) (i := tb.timeline.bnd j) (j := x.first)
      have a2 := Frame.unitStart_le_iff (f := f) (i := x.first) (j := tb.timeline.bnd j)
      omega
    exact ⟨k', w, x, hw, g1, e, g4, by rw [hs, e]⟩
  have hidx : tb.timeline.wsIdx = ss.map Span.first := by
    refine pairwise_lt_ext hv.wf.sorted ht.pairwise_first (fun z => ?_)
    constructor
    · intro hz
      obtain ⟨i, hi, rfl⟩ := List.getElem_of_mem hz
      obtain ⟨k', w, x, _, g2, g3, _⟩ := hall i (by omega) (by unfold Timeline.len; omega)
      obtain ⟨_, e⟩ := tb.timeline.bnd_lt (k := (i : Int)) (by omega) (by unfold Timeline.len; omega)
      simp only [Int.toNat_natCast] at e
      rw [← e, g3]
      exact List.mem_map_of_mem (List.mem_of_getElem? g2)
    · intro hz
      obtain ⟨x, hx, rfl⟩ := List.mem_map.1 hz
      obtain ⟨k', hk'⟩ := List.getElem?_of_mem hx
      obtain ⟨l, hl⟩ := cyclic_some hls k'
      obtain ⟨j, w, j0, j1, hw, hs, _⟩ := (h _ _ _).2 ⟨k', x, hk', rfl, rfl, hl⟩
      obtain ⟨w', hw', _, _, _, hs', _⟩ := Workshift.exists_of_range hv none j0 j1
      rw [hw] at hw'; cases hw'
      rw [hs, hf] at hs'
      simp only [Except.ok.injEq] at hs'
      have e : tb.timeline.bnd j = x.first := by
        have a1 := Frame.unitStart_le_iff (f := f) (i := tb.timeline.bnd j) (j := x.first)
        have a2 := Frame.unitStart_le_iff (f := f) (i := x.first) (j := tb.timeline.bnd j)
        omega
      obtain ⟨hh, e'⟩ := tb.timeline.bnd_lt j0 j1
      rw [← e, e']
      exact List.getElem_mem hh
  obtain ⟨k', w, x, g1, g2, g3, g4, g5⟩ := hall k k0 k1
  obtain ⟨hh, e'⟩ := tb.timeline.bnd_lt k0 k1
  have hk : k.toNat < ss.length := by
    have := congrArg List.length hidx
    rw [List.length_map] at this
    omega
  have e2 : (ss[k.toNat]).first = x.first := by
    rw [← g3, e']
    simp only [hidx, List.getElem_map]
  have hx := ht.mem (List.mem_of_getElem? g2)
  have hx2 := ht.mem (List.getElem_mem hk)
  have := ht.disjoint (i := x.first) (List.getElem?_eq_getElem hk) g2 (by omega) (by omega) (by omega) (by omega)
  subst this
  exact ⟨w, x, g1, g2, g5, g4⟩

end TB
