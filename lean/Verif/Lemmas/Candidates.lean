import Verif.Lemmas.MarkerHow
import Verif.Props.Partition
import Verif.Lemmas.Notation
import Verif.Lemmas.Multiplied
import Verif.Lemmas.Anchor
/-! Partitioning with a marker whose candidate points are known. -/
namespace TB
variable {L : Type}

/-- Each subspan but the first starts with a base unit in which there is a candidate point. -/
theorem Frame.partition_candidates {f : Frame} {s : Span} {m : Marker} {pi : Frame} {cand : List Time} (hne : m.ats ≠ [])
    (hc : checkGroupbyFreq f.freq m.each = true)
    (h0 : 0 ≤ s.first) (h1 : s.first ≤ s.last) (h2 : s.last < f.n)
    (hpi : Frame.new m.each (f.unitStart s.first - getFreqDelta m.each) (f.unitEnd s.last + getFreqDelta m.each) = .ok pi)
    (hcand : collectAts pi f.freq m.ats = .ok cand) :
    ∃ ss, f.partitionWithMarker s m = .ok ss ∧ Tiles s.first s.last ss ∧
      ∀ i, s.first < i → i ≤ s.last → ((∃ y ∈ ss, y.first = i) ↔ ∃ t ∈ cand, f.unitStart i ≤ t ∧ t < f.noticedEnd i) := by
  have hats : m.ats.isEmpty = false := by
    cases h : m.ats with
    | nil => exact absurd h hne
    | cons g gs => rfl
  have hsl : ∀ i, s.first < i → i ≤ s.last → ((∃ t ∈ sliceAtPoints (sortList cand) (f.unitStart s.first) (f.unitEnd s.last),
      f.unitStart i ≤ t ∧ t < f.noticedEnd i) ↔ ∃ t ∈ cand, f.unitStart i ≤ t ∧ t < f.noticedEnd i) := by
    intro i hi1 hi2
    have hnl := f.noticedEnd_le i
    have hab : f.unitStart s.first < f.unitEnd s.last := by
      have := f.unitStart_add_sec s.first
      have := Frame.unitStart_le_iff (f := f) (i := s.first + 1) (j := s.last + 1)
      have : (1 : Int) < nsSec := by decide
      rw [Frame.unitEnd_eq]
      omega
    constructor
    · rintro ⟨t, ht, h3⟩
      exact ⟨t, (mem_sortList _ _).1 (sliceAtPoints_sub ht), h3⟩
    · rintro ⟨t, ht, h3, h4⟩
      have hlt := Frame.unitStart_lt (f := f) hi1
      have hle : f.unitEnd i ≤ f.unitEnd s.last := by
        rw [Frame.unitEnd_eq, Frame.unitEnd_eq]
        have := Frame.unitStart_le_iff (f := f) (i := i + 1) (j := s.last + 1)
        omega
      refine ⟨t, (mem_sliceAtPoints_iff' (pairwise_sortList _) hab).2 ⟨(mem_sortList _ _).2 ht, ?_, ?_⟩, h3, h4⟩
      · intro y _ hy; omega
      · intro y _ hy; omega
  by_cases hemp : sliceAtPoints (sortList cand) (f.unitStart s.first) (f.unitEnd s.last) = []
  · have hstn : f.stencilFor m (f.unitStart s.first) (f.unitEnd s.last) = .ok none := by
      unfold Frame.stencilFor
      simp only [hats, Bool.false_eq_true, if_false, hpi, hcand, Bind.bind, Except.bind, hemp]
      rfl
    refine ⟨_, Frame.partitionWithMarker_none hc h0 h1 h2 hstn, ⟨rfl, rfl, h1⟩, ?_⟩
    intro i hi1 hi2
    rw [← hsl i hi1 hi2, hemp]
    simp
    omega
  · obtain ⟨a0, ha0⟩ : ∃ a0, (sliceAtPoints (sortList cand) (f.unitStart s.first) (f.unitEnd s.last)).head? = some a0 :=
      ⟨_, List.head?_eq_some_head hemp⟩
    obtain ⟨a1, ha1⟩ : ∃ a0, (sliceAtPoints (sortList cand) (f.unitStart s.first) (f.unitEnd s.last)).getLast? = some a0 :=
      ⟨_, List.getLast?_eq_some_getLast hemp⟩
    have hstn : ∃ st, f.stencilFor m (f.unitStart s.first) (f.unitEnd s.last) = .ok (some st) ∧
        st.points = sliceAtPoints (sortList cand) (f.unitStart s.first) (f.unitEnd s.last) := by
      unfold Frame.stencilFor
      simp only [hats, Bool.false_eq_true, if_false, hpi, hcand, Bind.bind, Except.bind, ha0, ha1]
      exact ⟨_, rfl, rfl⟩
    obtain ⟨st, hst1, hst2⟩ := hstn
    obtain ⟨ss, g1, g2, _, g4⟩ := Frame.partitionWithMarker_some (m := m) hc h0 h1 h2 hst1
    refine ⟨ss, g1, g2, ?_⟩
    intro i hi1 hi2
    rw [g4, ← hsl i hi1 hi2, hst2]
    constructor
    · rintro (h | ⟨_, _, h⟩)
      · omega
      · exact h
    · intro h; exact .inr ⟨hi1, hi2, h⟩

/-- The layout cannot be applied if one of the rules cannot. -/
theorem Frame.partition_rule_error {f : Frame} {s : Span} {m : Marker} {pi : Frame} {e : Err} (hne : m.ats ≠ [])
    (hc : checkGroupbyFreq f.freq m.each = true)
    (h0 : 0 ≤ s.first) (h1 : s.first ≤ s.last) (h2 : s.last < f.n)
    (hpi : Frame.new m.each (f.unitStart s.first - getFreqDelta m.each) (f.unitEnd s.last + getFreqDelta m.each) = .ok pi)
    (hcand : collectAts pi f.freq m.ats = .error e) : f.partitionWithMarker s m = .error e := by
  have hats : m.ats.isEmpty = false := by
    cases h : m.ats with
    | nil => exact absurd h hne
    | cons g gs => rfl
  refine Frame.partitionWithMarker_error hc h0 h1 h2 ?_
  unfold Frame.stencilFor
  simp only [hats, Bool.false_eq_true, if_false, hpi, hcand, Bind.bind, Except.bind]

/-- The calendar periods around a timeboard. -/
theorem stencil_exists (each : Freq) {f : Frame} (hn : 0 < f.n) :
    ∃ pi, Frame.new each (f.startTime - getFreqDelta each) (f.endTime + getFreqDelta each) = .ok pi ∧ pi.freq = each := by
  have hab := Frame.unitStart_le_unitEnd' (f := f) (show (0 : Int) ≤ (f.n : Int) - 1 by omega)
  obtain ⟨pi, h1, h2, _⟩ := stencil_grid (each := each) hab
  exact ⟨pi, h1, h2⟩

/-- A timeboard with labels after a marker, from the points made by the rules. -/
theorem Timeboard.candidates {a : Args L} {heap : Heap L} {m : Marker} {ls : List L} {f pi : Frame} {cand : List Time}
    (ha : a.amendments = []) (hlay : a.layout = .organizer (.marker m) (ls.map .label)) (hls : ls ≠ [])
    (hw : a.worktimeSource ∈ ["duration", "labels"]) (hf : Frame.new a.freq a.start a.stop = .ok f)
    (hc : checkGroupbyFreq a.freq m.each = true) (hne : m.ats ≠ [])
    (hpi : Frame.new m.each (f.startTime - getFreqDelta m.each) (f.endTime + getFreqDelta m.each) = .ok pi)
    (hcand : collectAts pi a.freq m.ats = .ok cand) :
    ∃ tb, Timeboard.new a heap = .ok (tb, heap) ∧ tb.timeline.frame = f ∧
      (∀ t, (∃ d l, tb.Starts t d l) → ∃ i : Int, 0 ≤ i ∧ i < f.n ∧ t = f.unitStart i) ∧
      (∀ i : Int, 0 ≤ i → i < f.n → ((∃ d l, tb.Starts (f.unitStart i) d l) ↔ (i = 0 ∨ ∃ t ∈ cand, f.unitStart i ≤ t ∧ t < f.noticedEnd i))) ∧
      ∀ k, 0 ≤ k → k < tb.timeline.len → ∃ w, Workshift.new tb k = .ok w ∧ cyclic ls k.toNat = some w.label := by
  have hn := Frame.new_valid hf
  unfold Frame.Valid at hn
  have hff : f.freq = a.freq := by rw [(Frame.new_ok_iff.1 hf).2]
  rw [← hff] at hc hcand
  obtain ⟨ss, g1, g2, g3⟩ := Frame.partition_candidates (f := f) (s := { first := 0, last := (f.n : Int) - 1 }) hne hc (by simp) (by simp only; omega)
    (by simp only; omega) hpi hcand
  obtain ⟨tb, k1', k2, k3⟩ := Timeboard.labels_organizer (heap := heap) ha hlay hls hw hf (by exact g1)
  refine ⟨tb, k1', k2, ?_, ?_, ?_⟩
  · rintro t ⟨d, l, hst⟩
    obtain ⟨k, x, hk, rfl, _⟩ := (k3 _ _ _).1 hst
    have hxm := g2.mem (List.mem_of_getElem? hk)
    simp only at hxm
    exact ⟨x.first, by omega, by omega, rfl⟩
  · intro i i0 i1
    rw [starts_of_spans hls k3]
    rcases Int.lt_or_eq_of_le i0 with h | h
    · rw [g3 i h (by simp only; omega)]
      constructor
      · exact fun h => .inr h
      · rintro (h' | h')
        · omega
        · exact h'
    · subst h
      obtain ⟨k, x, hk, hx1, hx2⟩ := g2.cover (i := 0) (by simp only; omega) (by simp only; omega)
      have := g2.mem (List.mem_of_getElem? hk)
      simp only at this
      exact ⟨fun _ => .inl rfl, fun _ => ⟨x, List.mem_of_getElem? hk, by omega⟩⟩
  · intro k k0 k1
    obtain ⟨w, x, w1, _, _, w2⟩ := labels_position (Timeboard.Reachable.new k1') k2 g2 hls k3 k0 k1
    exact ⟨w, w1, w2⟩

/-- The same for points which are starts of base units. -/
theorem Timeboard.candidates_aligned {a : Args L} {heap : Heap L} {m : Marker} {ls : List L} {f pi : Frame} {cand : List Time}
    (ha : a.amendments = []) (hlay : a.layout = .organizer (.marker m) (ls.map .label)) (hls : ls ≠ [])
    (hw : a.worktimeSource ∈ ["duration", "labels"]) (hf : Frame.new a.freq a.start a.stop = .ok f)
    (hc : checkGroupbyFreq a.freq m.each = true) (hne : m.ats ≠ [])
    (hpi : Frame.new m.each (f.startTime - getFreqDelta m.each) (f.endTime + getFreqDelta m.each) = .ok pi)
    (hcand : collectAts pi a.freq m.ats = .ok cand) (hu : a.freq.mult = 1) (hal : ∀ t ∈ cand, t = snap a.freq t) :
    ∃ tb, Timeboard.new a heap = .ok (tb, heap) ∧ tb.timeline.frame = f ∧
      (∀ t, (∃ d l, tb.Starts t d l) ↔ (t = tb.startTime ∨ (t ∈ cand ∧ tb.startTime < t ∧ t ≤ tb.endTime))) ∧
      ∀ k, 0 ≤ k → k < tb.timeline.len → ∃ w, Workshift.new tb k = .ok w ∧ cyclic ls k.toNat = some w.label := by
  have hn := Frame.new_valid hf
  unfold Frame.Valid at hn
  have hff : f.freq = a.freq := by rw [(Frame.new_ok_iff.1 hf).2]
  obtain ⟨tb, k1, k2, k3, k4, k5⟩ := Timeboard.candidates (heap := heap) ha hlay hls hw hf hc hne hpi hcand
  have hus : ∀ i, f.unitStart i = a.freq.base.startOf (f.o0 + i) := by
    intro i; unfold Frame.unitStart Frame.ord; rw [hff, hu]; congr 1; omega
  have e : tb.startTime = f.unitStart 0 := by unfold Timeboard.startTime Frame.startTime; rw [k2]
  have hen : tb.endTime = f.unitStart f.n - 1 := by
    unfold Timeboard.endTime Frame.endTime; rw [k2, Frame.unitEnd_eq]; congr 2; omega
  have hst : ∀ t ∈ cand, ∃ i, t = f.unitStart i := by
    intro t ht
    have w3 := hal t ht
    refine ⟨a.freq.base.ordOf t - f.o0, ?_⟩
    rw [hus]
    unfold snap at w3
    rw [show f.o0 + (a.freq.base.ordOf t - f.o0) = a.freq.base.ordOf t by omega]
    exact w3
  refine ⟨tb, k1, k2, ?_, k5⟩
  intro t
  constructor
  · intro h
    obtain ⟨i, i0, i1, rfl⟩ := k3 t h
    rcases (k4 i i0 i1).1 h with rfl | ⟨t, ht, h3, h4⟩
    · exact .inl e.symm
    · obtain ⟨i', rfl⟩ := hst t ht
      have hnl := f.noticedEnd_le i
      have : i = i' := Frame.unit_unique (f := f) (t := f.unitStart i') h3 (by omega) (by omega) (f.unitStart_le_unitEnd i')
      subst this
      rcases Int.lt_or_eq_of_le i0 with h5 | h5
      · refine .inr ⟨ht, by rw [e]; exact Frame.unitStart_lt h5, ?_⟩
        have := Frame.unitStart_lt (f := f) i1
        omega
      · subst h5; exact .inl e.symm
  · rintro (rfl | ⟨ht, h1, h2⟩)
    · rw [e]; exact (k4 0 (by omega) (by omega)).2 (.inl rfl)
    · obtain ⟨i, rfl⟩ := hst t ht
      rw [e, Frame.unitStart_lt_iff] at h1
      have h4 := Frame.unitStart_lt_iff (f := f) (i := i) (j := f.n)
      refine (k4 i (by omega) (by omega)).2 (.inr ⟨_, ht, by omega, ?_⟩)
      unfold Frame.noticedEnd
      have := nsSec_pos
      have := @Frame.unitStart_lt f i (i + 1) (by omega)
      split <;> omega

end TB
