import Verif.Lemmas.MarkerAt
import Verif.Lemmas.Dangle
import Verif.Spec.Marks
/-! Partitioning with regular markers. -/
namespace TB

/-- The candidates of a regular marker over a stencil. -/
theorem collectAts_regular {each bu : Freq} {pi : Frame} (hpf : pi.freq = each) (hn : 0 < pi.n) :
    ∀ {ats : List (Frame → Freq → Except Err (List Time))},
    (∀ g ∈ ats, ∀ pi : Frame, pi.freq = each → 0 < pi.n → ∃ ts, g pi bu = .ok ts ∧
      ∀ t, t ∈ ts ↔ ∃ o, pi.o0 ≤ o ∧ o < pi.o0 + pi.n ∧ t ∈ howAt g each bu o) →
    ∃ cand, collectAts pi bu ats = .ok cand ∧ ∀ t, t ∈ cand ↔ ∃ g ∈ ats, ∃ o, pi.o0 ≤ o ∧ o < pi.o0 + pi.n ∧ t ∈ howAt g each bu o := by
  intro ats
  induction ats with
  | nil => intro _; exact ⟨[], rfl, by simp⟩
  | cons g gs ih =>
    intro h
    obtain ⟨ts, h1, h2⟩ := h g (by simp) pi hpf hn
    obtain ⟨cand, h3, h4⟩ := ih (fun g hg => h g (by simp [hg]))
    refine ⟨ts ++ cand, by simp only [collectAts, h1, h3, Bind.bind, Except.bind]; rfl, ?_⟩
    intro t
    rw [List.mem_append, h2, h4]
    simp only [List.mem_cons, exists_eq_or_imp]

/-- The dangle `x` of a span starting at `a`: the number of base units since the last mark, if this mark is within the
envelope. -/
def Marker.LeftDangle (bu : Freq) (m : Marker) (a : Time) (x : Int) : Prop :=
  (x = -1 ∧ ∀ t, m.Mark bu t → t ≤ a → m.each.base.ordOf t < m.each.base.ordOf (a - getFreqDelta m.each)) ∨
  (∃ t, m.Mark bu t ∧ t ≤ a ∧ m.each.base.ordOf (a - getFreqDelta m.each) ≤ m.each.base.ordOf t ∧
    (∀ t', m.Mark bu t' → t' ≤ a → t' ≤ t) ∧ x = bu.base.ordOf a - bu.base.ordOf t)

theorem Marker.LeftDangle.unique {bu : Freq} {m : Marker} {a : Time} {x y : Int} (hx : m.LeftDangle bu a x) (hy : m.LeftDangle bu a y) : x = y := by
  rcases hx with ⟨h1, h2⟩ | ⟨t, t1, t2, t3, t4, t5⟩ <;> rcases hy with ⟨k1, k2⟩ | ⟨u, u1, u2, u3, u4, u5⟩
  · omega
  · have := h2 u u1 u2; omega
  · have := k2 t t1 t2; omega
  · have h1 := t4 u u1 u2
    have h2 := u4 t t1 t2
    have : t = u := by omega
    subst this
    omega

/-- **Partitioning with a regular marker.** -/
theorem Frame.partition_regular {f : Frame} {s : Span} {m : Marker} (hr : m.Regular f.freq) (hc : checkGroupbyFreq f.freq m.each = true)
    (h0 : 0 ≤ s.first) (h1 : s.first ≤ s.last) (h2 : s.last < f.n) :
    ∃ ss x, f.partitionWithMarker s m = .ok ss ∧ Tiles s.first s.last ss ∧
      (∀ i, s.first < i → i ≤ s.last → ((∃ y ∈ ss, y.first = i) ↔ m.Mark f.freq (f.unitStart i))) ∧
      SkipsLeft x ss ∧ m.LeftDangle f.freq (f.unitStart s.first) x := by
  obtain ⟨hm, hne, heach, hwit⟩ := hr
  obtain ⟨hfm, hal⟩ := checkGroupby_unit hc hm
  have hab := Frame.unitStart_le_unitEnd' (f := f) h1
  have hab' : f.unitStart s.first < f.unitEnd s.last := by
    have := f.unitStart_add_sec s.first
    have := Frame.unitStart_le_iff (f := f) (i := s.first + 1) (j := s.last + 1)
    have : (1 : Int) < nsSec := by decide
    rw [Frame.unitEnd_eq]
    omega
  obtain ⟨pi, hpi, hpf, hp0, hpl, hpr, _, hps, hpe⟩ := stencil_envelope hm hab
  have hpn : 0 < pi.n := Frame.new_valid hpi
  obtain ⟨cand, hcand, hmem⟩ := collectAts_regular hpf hpn heach
  have hus : ∀ i, f.unitStart i = f.freq.base.startOf (f.o0 + i) := by
    intro i; unfold Frame.unitStart Frame.ord; rw [hfm]; congr 1; omega
  have hats : m.ats.isEmpty = false := by
    cases h : m.ats with
    | nil => exact absurd h hne
    | cons g gs => rfl
  -- marks up to the end of the span
  have hcm : ∀ t, t ≤ f.unitEnd s.last → (t ∈ cand ↔ (m.Mark f.freq t ∧ pi.o0 ≤ m.each.base.ordOf t)) := by
    intro t hte
    rw [hmem]
    constructor
    · rintro ⟨g, hg, o, k1, k2, k3⟩
      obtain ⟨w1, w2, w3⟩ := hwit g hg o t k3
      have : m.each.base.ordOf t = o := (Base.ordOf_eq_iff _ _ _).2 ⟨w1, w2⟩
      exact ⟨⟨o, g, hg, k3⟩, by omega⟩
    · rintro ⟨⟨o, g, hg, k3⟩, k4⟩
      obtain ⟨w1, w2, w3⟩ := hwit g hg o t k3
      have e : m.each.base.ordOf t = o := (Base.ordOf_eq_iff _ _ _).2 ⟨w1, w2⟩
      have := m.each.base.ordOf_mono hte
      exact ⟨g, hg, o, by omega, by omega, k3⟩
  have hcd : ∀ i, s.first < i → i ≤ s.last → (f.unitStart i ∈ cand ↔ m.Mark f.freq (f.unitStart i)) := by
    intro i hi1 hi2
    have hlt := Frame.unitStart_lt (f := f) hi1
    have hle : f.unitStart i ≤ f.unitEnd s.last := by
      have := Frame.unitStart_le_iff (f := f) (i := i + 1) (j := s.last + 1)
      have := @Frame.unitStart_lt f i (i + 1) (by omega)
      rw [Frame.unitEnd_eq]
      omega
    rw [hcm _ hle]
    constructor
    · exact fun h => h.1
    · intro h
      have := m.each.base.ordOf_mono (show f.unitStart s.first ≤ f.unitStart i by omega)
      exact ⟨h, by omega⟩
  -- points are starts of base units
  have hst : ∀ t ∈ cand, ∃ i, t = f.unitStart i := by
    intro t ht
    obtain ⟨g, hg, o, _, _, k3⟩ := (hmem t).1 ht
    obtain ⟨w1, w2, w3⟩ := hwit g hg o t k3
    refine ⟨f.freq.base.ordOf t - f.o0, ?_⟩
    rw [hus]
    unfold snap at w3
    rw [show f.o0 + (f.freq.base.ordOf t - f.o0) = f.freq.base.ordOf t by omega]
    exact w3
  have hsl : ∀ i, s.first < i → i ≤ s.last → ((∃ t ∈ sliceAtPoints (sortList cand) (f.unitStart s.first) (f.unitEnd s.last),
      f.unitStart i ≤ t ∧ t < f.noticedEnd i) ↔ f.unitStart i ∈ cand) := by
    intro i hi1 hi2
    have hnl := f.noticedEnd_le i
    constructor
    · rintro ⟨t, ht, h3, h4⟩
      have ht' := (mem_sortList _ _).1 (sliceAtPoints_sub ht)
      obtain ⟨i', rfl⟩ := hst t ht'
      have : i = i' := Frame.unit_unique (f := f) (t := f.unitStart i') h3 (by omega) (by omega) (f.unitStart_le_unitEnd i')
      rw [this]; exact ht'
    · intro h3
      refine ⟨f.unitStart i, mem_sliceAtPoints (pairwise_sortList _) ((mem_sortList _ _).2 h3) (Frame.unitStart_lt hi1) ?_, by omega, ?_⟩
      · have := Frame.unitStart_le_iff (f := f) (i := i + 1) (j := s.last + 1)
        have := f.unitStart_add_sec i
        have : (1 : Int) < nsSec := by decide
        rw [Frame.unitEnd_eq]
        omega
      · unfold Frame.noticedEnd
        have := nsSec_pos
        have := @Frame.unitStart_lt f i (i + 1) (by omega)
        split <;> omega
  -- no mark at or before the start
  have hD : (∀ t ∈ cand, f.unitStart s.first < t) → m.LeftDangle f.freq (f.unitStart s.first) (-1) := by
    intro hall
    refine .inl ⟨rfl, ?_⟩
    intro t ht hta
    rw [← hp0]
    rcases Int.lt_or_le (m.each.base.ordOf t) pi.o0 with h | h
    · exact h
    · have := hall t ((hcm t (by omega)).2 ⟨ht, h⟩); omega
  by_cases hemp : sliceAtPoints (sortList cand) (f.unitStart s.first) (f.unitEnd s.last) = []
  · have hstn : f.stencilFor m (f.unitStart s.first) (f.unitEnd s.last) = .ok none := by
      unfold Frame.stencilFor
      simp only [hats, Bool.false_eq_true, if_false, hpi, hcand, Bind.bind, Except.bind, hemp]
      rfl
    refine ⟨_, -1, Frame.partitionWithMarker_none hc h0 h1 h2 hstn, ⟨rfl, rfl, h1⟩, ?_, ⟨rfl, by simp⟩, hD ?_⟩
    · intro i hi1 hi2
      rw [← hcd i hi1 hi2, ← hsl i hi1 hi2, hemp]
      simp
      omega
    · intro t ht
      rcases Int.lt_or_le (f.unitStart s.first) t with h | h
      · exact h
      · obtain ⟨x, e1, _⟩ := sliceAtPoints_head (b := f.unitEnd s.last) (pairwise_sortList cand) hab' ⟨t, (mem_sortList _ _).2 ht, h⟩
        rw [hemp] at e1; cases e1
  · obtain ⟨a0, ha0⟩ : ∃ a0, (sliceAtPoints (sortList cand) (f.unitStart s.first) (f.unitEnd s.last)).head? = some a0 :=
      ⟨_, List.head?_eq_some_head hemp⟩
    obtain ⟨a1, ha1⟩ : ∃ a0, (sliceAtPoints (sortList cand) (f.unitStart s.first) (f.unitEnd s.last)).getLast? = some a0 :=
      ⟨_, List.getLast?_eq_some_getLast hemp⟩
    have ha0c : a0 ∈ cand := (mem_sortList _ _).1 (sliceAtPoints_sub (List.mem_of_mem_head? ha0))
    have hstn : ∃ st, f.stencilFor m (f.unitStart s.first) (f.unitEnd s.last) = .ok (some st) ∧
        st.points = sliceAtPoints (sortList cand) (f.unitStart s.first) (f.unitEnd s.last) ∧
        st.leftUndefined = decide (a0 > f.unitStart s.first) ∧ st.leftBound = min a0 (f.unitStart s.first) := by
      unfold Frame.stencilFor
      simp only [hats, Bool.false_eq_true, if_false, hpi, hcand, Bind.bind, Except.bind, ha0, ha1]
      exact ⟨_, rfl, rfl, rfl, rfl⟩
    obtain ⟨st, hst1, hst2, hst3, hst4⟩ := hstn
    obtain ⟨ss, g1, g2, g3, g4⟩ := Frame.partitionWithMarker_some (m := m) hc h0 h1 h2 hst1
    refine ⟨ss, _, g1, g2, ?_, g3, ?_⟩
    · intro i hi1 hi2
      rw [g4, ← hcd i hi1 hi2, ← hsl i hi1 hi2, hst2]
      constructor
      · rintro (h | ⟨_, _, h⟩)
        · omega
        · exact h
      · intro h; exact .inr ⟨hi1, hi2, h⟩
    · by_cases hex : ∃ t ∈ cand, t ≤ f.unitStart s.first
      · have hex' : ∃ x ∈ sortList cand, x ≤ f.unitStart s.first := by
          obtain ⟨t, ht, hta⟩ := hex; exact ⟨t, (mem_sortList _ _).2 ht, hta⟩
        obtain ⟨x, e1, e2, e3, e4⟩ := sliceAtPoints_head (b := f.unitEnd s.last) (pairwise_sortList cand) hab' hex'
        rw [ha0] at e1; cases e1
        obtain ⟨m1, m2⟩ := (hcm a0 (by omega)).1 ha0c
        refine .inr ⟨a0, m1, e3, by rw [← hp0]; exact m2, ?_, ?_⟩
        · intro t' ht' hta
          rcases Int.lt_or_le (m.each.base.ordOf t') pi.o0 with hlt | hle
          · rcases Int.lt_or_le a0 t' with h | h
            · have := m.each.base.ordOf_mono (show a0 ≤ t' by omega); omega
            · exact h
          · exact e4 t' ((mem_sortList _ _).2 ((hcm t' (by omega)).2 ⟨ht', hle⟩)) hta
        · unfold Frame.skipBefore
          rw [hst3, hst4]
          rw [if_neg (by simp only [decide_eq_true_eq]; omega), show min a0 (f.unitStart s.first) = a0 by omega]
          have e5 : f.freq.base.ordOf (f.unitStart s.first) = f.ord s.first := by unfold Frame.unitStart; rw [Base.ordOf_startOf]
          split
          · rw [countDifference_left hfm h0 (by omega) e3, e5]
          · have : a0 = f.unitStart s.first := by omega
            rw [this]; omega
      · have hall : ∀ t ∈ cand, f.unitStart s.first < t := by
          intro t ht
          rcases Int.lt_or_le (f.unitStart s.first) t with h | h
          · exact h
          · exact absurd ⟨t, ht, h⟩ hex
        have hlt := hall a0 ha0c
        have : f.skipBefore s st (f.unitStart s.first) = -1 := by
          unfold Frame.skipBefore; rw [hst3, if_pos (by simp only [decide_eq_true_eq]; omega)]
        rw [this]
        exact hD hall

end TB
