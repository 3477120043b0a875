import Verif.Spec.Seasons
import Verif.Lemmas.Nested
import Verif.Lemmas.Anchor
import Verif.Lemmas.MarkerHow
/-! Which element of an organizer has its turn at a time. -/
namespace TB
variable {L : Type}

/-- The number of a span is the number of spans which begin after the first one, up to a point within it. -/
theorem Tiles.number {a b : Int} {ss : List Span} (h : Tiles a b ss) {k : Nat} {x : Span} (hk : ss[k]? = some x) {i : Int} (h1 : x.first ≤ i)
    (h2 : i ≤ x.last) {js : List Int} (hp : js.Pairwise (· < ·)) (hj : ∀ j, j ∈ js ↔ (a < j ∧ j ≤ i ∧ ∃ y ∈ ss, y.first = j)) : k = js.length := by
  have hlt : k < ss.length := by
    rcases Nat.lt_or_ge k ss.length with h' | h'
    · exact h'
    · rw [List.getElem?_eq_none h'] at hk; cases hk
  have e : (ss.take (k + 1)).map Span.first = a :: js := by
    apply pairwise_lt_ext
    · exact List.Pairwise.sublist ((List.take_sublist _ _).map _) h.pairwise_first
    · rw [List.pairwise_cons]
      exact ⟨fun j hj' => ((hj j).1 hj').1, hp⟩
    · intro z
      rw [List.mem_cons, List.mem_map]
      constructor
      · rintro ⟨y, hy, rfl⟩
        obtain ⟨n, hn⟩ := List.getElem?_of_mem hy
        rw [List.getElem?_take] at hn
        split at hn
        · rename_i hnk
          rcases Nat.eq_zero_or_pos n with rfl | hpos
          · exact .inl (h.first_zero hn)
          · right
            rw [hj]
            have hz : ss[0]? = some (ss[0]'(by omega)) := List.getElem?_eq_getElem _
            have g1 := h.lt_of_index hpos hz hn
            have g2 := h.first_zero hz
            have g3 := h.mem (List.mem_of_getElem? hz)
            refine ⟨by omega, ?_, y, List.mem_of_getElem? hn, rfl⟩
            rcases Nat.lt_or_ge n k with hlt' | hge
            · have := h.lt_of_index hlt' hn hk
              have := h.mem (List.mem_of_getElem? hn)
              omega
            · have : n = k := by omega
              subst this
              rw [hk] at hn
              cases hn
              exact h1
        · cases hn
      · rintro (rfl | hz)
        · have hz : ss[0]? = some (ss[0]'(by omega)) := List.getElem?_eq_getElem _
          refine ⟨ss[0]'(by omega), List.mem_of_getElem? (i := 0) ?_, h.first_zero hz⟩
          rw [List.getElem?_take, if_pos (by omega)]
          exact hz
        · obtain ⟨_, z2, y, hy, rfl⟩ := (hj z).1 hz
          obtain ⟨n, hn⟩ := List.getElem?_of_mem hy
          refine ⟨y, List.mem_of_getElem? (i := n) ?_, rfl⟩
          rw [List.getElem?_take, if_pos ?_]
          · exact hn
          · rcases Nat.lt_or_ge k n with hlt' | hge
            · have := h.lt_of_index hlt' hk hn
              omega
            · omega
  have := congrArg List.length e
  rw [List.length_map, List.length_take, List.length_cons] at this
  omega

/-- The number of the base unit of a time. -/
def Frame.unitNo (f : Frame) (t : Time) : Int := (f.freq.base.ordOf t - f.o0) / f.freq.mult

theorem Frame.unitStart_le_at (f : Frame) (j : Int) (t : Time) : f.unitStart j ≤ t ↔ j ≤ f.unitNo t := by
  unfold Frame.unitStart Frame.unitNo
  have := f.freq.mult_pos
  rw [Base.startOf_le_iff, Int.le_ediv_iff_mul_le (by omega)]
  unfold Frame.ord
  rw [Int.mul_comm]
  omega

theorem Frame.unitNo_start (f : Frame) (j : Int) : f.unitNo (f.unitStart j) = j := by
  have h1 := (f.unitStart_le_at j (f.unitStart j)).1 (Int.le_refl _)
  have h2 := f.unitStart_le_at (f.unitNo (f.unitStart j)) (f.unitStart j)
  have h3 := h2.2 (Int.le_refl _)
  rw [Frame.unitStart_le_iff] at h3
  omega

/-- The number of the span at a time is the number of marks after the start. -/
theorem Frame.number_marks {f : Frame} {ss : List Span} (ht : Tiles 0 ((f.n : Int) - 1) ss) {P : Time → Prop} (hP : ∀ u, P u → ∃ j, u = f.unitStart j)
    (hst : ∀ i, 0 < i → i ≤ (f.n : Int) - 1 → ((∃ y ∈ ss, y.first = i) ↔ P (f.unitStart i)))
    {k : Nat} {x : Span} (hk : ss[k]? = some x) {t : Time} (h1 : f.unitStart x.first ≤ t) (h2 : t ≤ f.unitEnd x.last)
    {ms : List Time} (hp : ms.Pairwise (· < ·)) (hm : ∀ u, u ∈ ms ↔ (P u ∧ f.unitStart 0 < u ∧ u ≤ t)) : k = ms.length := by
  have hx := ht.mem (List.mem_of_getElem? hk)
  have h1' := (f.unitStart_le_at _ _).1 h1
  have h2' : f.unitNo t ≤ x.last := by
    have := f.unitStart_le_at (x.last + 1) t
    rw [Frame.unitEnd_eq] at h2
    omega
  rw [← List.length_map (f := f.unitNo) (as := ms)]
  apply ht.number hk h1' h2'
  · rw [List.pairwise_map]
    refine List.Pairwise.imp_of_mem ?_ hp
    intro u v hu hv huv
    obtain ⟨j, rfl⟩ := hP u ((hm u).1 hu).1
    obtain ⟨j', rfl⟩ := hP v ((hm v).1 hv).1
    rw [Frame.unitNo_start, Frame.unitNo_start]
    exact Frame.unitStart_lt_iff.1 huv
  · intro j
    rw [List.mem_map]
    constructor
    · rintro ⟨u, hu, rfl⟩
      obtain ⟨u1, u2, u3⟩ := (hm u).1 hu
      obtain ⟨j, rfl⟩ := hP u u1
      rw [Frame.unitNo_start]
      rw [Frame.unitStart_lt_iff] at u2
      rw [Frame.unitStart_le_at] at u3
      exact ⟨u2, u3, (hst j u2 (by omega)).2 u1⟩
    · rintro ⟨j1, j2, j3⟩
      refine ⟨f.unitStart j, (hm _).2 ⟨(hst j j1 (by omega)).1 j3, Frame.unitStart_lt_iff.2 j1, (f.unitStart_le_at _ _).2 j2⟩, Frame.unitNo_start f j⟩

theorem Frame.cut_partition {f : Frame} (hn : 0 < f.n) (m : Marker) :
    f.cut { first := 0, last := (f.n : Int) - 1 } (.marker m) = f.partitionWithMarker { first := 0, last := (f.n : Int) - 1 } m :=
  (Frame.cutSpan_eq (f := f) (s := { first := 0, last := (f.n : Int) - 1 }) (.marker m) (by simp) (by simp only; omega) (by simp only; omega)).symm

theorem pairwise_map_intRange {g : Int → Int} (hg : ∀ i j, i < j → g i < g j) (a b : Int) : ((intRange a b).map g).Pairwise (· < ·) := by
  rw [List.pairwise_map]
  exact List.Pairwise.imp (fun h => hg _ _ h) (pairwise_intRange a b)

/-- The number of the span at a time, for a marker without `at`. -/
theorem Frame.number_calendar {f : Frame} {each : Freq} {ss : List Span} (hn : 0 < f.n)
    (hc : f.cut { first := 0, last := (f.n : Int) - 1 } (.marker ⟨each, []⟩) = .ok ss) {k : Nat} {x : Span} (hk : ss[k]? = some x) {t : Time}
    (h1 : f.unitStart x.first ≤ t) (h2 : t ≤ f.unitEnd x.last) :
    (k : Int) = (each.base.ordOf t - each.base.ordOf (f.unitStart 0)) / each.mult := by
  have hg : checkGroupbyFreq f.freq each = true := by
    unfold Frame.cut at hc
    simp only at hc
    split at hc
    · cases hc
    · rename_i h; simpa using h
  obtain ⟨ss', g1, g2, _, g3⟩ := Frame.partition_calendar (f := f) (s := { first := 0, last := (f.n : Int) - 1 }) hg (by simp) (by simp only; omega)
    (by simp only; omega)
  rw [Frame.cut_partition hn, g1] at hc
  cases hc
  simp only at g2 g3
  have hm := each.mult_pos
  have hun : ∀ r : Int, ∃ j, each.base.startOf (each.base.ordOf (f.unitStart 0) + each.mult * r) = f.unitStart j :=
    fun r => Frame.period_unit hg 0 0 r
  have hx := g2.mem (List.mem_of_getElem? hk)
  have h0 : f.unitStart 0 ≤ t := by
    have := Frame.unitStart_monotone (f := f) (i := 0) (j := x.first) (by omega)
    omega
  have hq : 0 ≤ (each.base.ordOf t - each.base.ordOf (f.unitStart 0)) / (each.mult : Int) :=
    Int.ediv_nonneg (by have := each.base.ordOf_mono h0; omega) (by omega)
  generalize hqq : (each.base.ordOf t - each.base.ordOf (f.unitStart 0)) / (each.mult : Int) = q at hq ⊢
  have hle : ∀ r : Int, r ≤ q ↔ each.base.startOf (each.base.ordOf (f.unitStart 0) + each.mult * r) ≤ t := by
    intro r
    rw [Base.startOf_le_iff, ← hqq, Int.le_ediv_iff_mul_le (by omega), Int.mul_comm]
    omega
  have hlt : ∀ r : Int, 0 < r ↔ f.unitStart 0 < each.base.startOf (each.base.ordOf (f.unitStart 0) + each.mult * r) := by
    intro r
    rw [Base.lt_startOf_iff]
    constructor
    · intro hr
      have : 0 < (each.mult : Int) * r := Int.mul_pos (by omega) hr
      omega
    · intro hr
      rcases Int.lt_or_le 0 r with h | h
      · exact h
      · have : 0 ≤ (each.mult : Int) * (-r) := Int.mul_nonneg (by omega) (by omega)
        rw [Int.mul_neg] at this
        omega
  have := Frame.number_marks (f := f) g2
    (P := fun u => ∃ r : Int, u = each.base.startOf (each.base.ordOf (f.unitStart 0) + each.mult * r))
    (by rintro u ⟨r, rfl⟩; exact hun r)
    (by
      intro i i1 i2
      rw [g3 i i1 i2]
      constructor
      · rintro ⟨o, ⟨r, hr⟩, o1, o2⟩
        refine ⟨r, ?_⟩
        obtain ⟨j, hj⟩ := hun r
        rw [show o = each.base.ordOf (f.unitStart 0) + each.mult * r by omega, hj] at o1 o2
        rw [hj]
        rw [Frame.unitEnd_eq] at o2
        have q1 := Frame.unitStart_le_iff.1 o1
        have q2 := Frame.unitStart_lt_iff.1 (show f.unitStart j < f.unitStart (i + 1) by omega)
        congr 1
        omega
      · rintro ⟨r, hr⟩
        refine ⟨each.base.ordOf (f.unitStart 0) + each.mult * r, ⟨r, by omega⟩, by rw [← hr]; exact Int.le_refl _, ?_⟩
        rw [← hr, Frame.unitEnd_eq]
        have := Frame.unitStart_lt (f := f) (i := i) (j := i + 1) (by omega)
        omega)
    hk h1 h2 (ms := (intRange 1 (q + 1)).map (fun r => each.base.startOf (each.base.ordOf (f.unitStart 0) + each.mult * r)))
    (pairwise_map_intRange (by
      intro i j hij
      rw [Base.startOf_lt_iff]
      have := Int.mul_lt_mul_of_pos_left hij (show (0 : Int) < each.mult by omega)
      omega) _ _)
    (by
      intro u
      rw [List.mem_map]
      constructor
      · rintro ⟨r, hr, rfl⟩
        rw [mem_intRange] at hr
        exact ⟨⟨r, rfl⟩, (hlt r).1 (by omega), (hle r).1 (by omega)⟩
      · rintro ⟨⟨r, rfl⟩, u2, u3⟩
        refine ⟨r, ?_, rfl⟩
        rw [mem_intRange]
        have := (hlt r).2 u2
        have := (hle r).2 u3
        omega)
  rw [List.length_map, length_intRange] at this
  omega

/-- The number of the span at a time, for a regular marker. -/
theorem Frame.number_regular {f : Frame} {m : Marker} {ss : List Span} (hn : 0 < f.n) (hr : m.Regular f.freq)
    (hc : f.cut { first := 0, last := (f.n : Int) - 1 } (.marker m) = .ok ss) {k : Nat} {x : Span} (hk : ss[k]? = some x) {t : Time}
    (h1 : f.unitStart x.first ≤ t) (h2 : t ≤ f.unitEnd x.last)
    {ms : List Time} (hp : ms.Pairwise (· < ·)) (hm : ∀ u, u ∈ ms ↔ (m.Mark f.freq u ∧ f.unitStart 0 < u ∧ u ≤ t)) : k = ms.length := by
  have hg : checkGroupbyFreq f.freq m.each = true := by
    unfold Frame.cut at hc
    simp only at hc
    split at hc
    · cases hc
    · rename_i h; simpa using h
  obtain ⟨hfm, _⟩ := checkGroupby_unit hg hr.mult
  obtain ⟨ss', _, g1, g2, g3, _⟩ := Frame.partition_regular (f := f) (s := { first := 0, last := (f.n : Int) - 1 }) hr hg (by simp) (by simp only; omega)
    (by simp only; omega)
  rw [Frame.cut_partition hn, g1] at hc
  cases hc
  exact Frame.number_marks (f := f) g2 (fun u hu => ⟨_, hr.mark_unit hfm hu⟩) g3 hk h1 h2 hp hm

/-- The marks after the start, as a list. -/
theorem Frame.exists_marks (f : Frame) {P : Time → Prop} (hP : ∀ u, P u → ∃ j, u = f.unitStart j) (t : Time) :
    ∃ ms : List Time, ms.Pairwise (· < ·) ∧ ∀ u, u ∈ ms ↔ (P u ∧ f.unitStart 0 < u ∧ u ≤ t) := by
  classical
  refine ⟨((intRange 1 (f.unitNo t + 1)).map f.unitStart).filter (fun u => decide (P u)), ?_, ?_⟩
  · exact (pairwise_map_intRange (fun i j h => Frame.unitStart_lt_iff.2 h) _ _).filter _
  · intro u
    rw [List.mem_filter, List.mem_map, decide_eq_true_eq]
    constructor
    · rintro ⟨⟨j, hj, rfl⟩, h⟩
      rw [mem_intRange] at hj
      exact ⟨h, Frame.unitStart_lt_iff.2 (by omega), (f.unitStart_le_at _ _).2 (by omega)⟩
    · rintro ⟨h, h1, h2⟩
      obtain ⟨j, rfl⟩ := hP u h
      refine ⟨⟨j, ?_, rfl⟩, h⟩
      rw [mem_intRange]
      have := Frame.unitStart_lt_iff.1 h1
      have := (f.unitStart_le_at _ _).1 h2
      omega

section summer
variable {A B : Int → Time} (hAB : ∀ y, A y < B y) (hBA : ∀ y, B y < A (y + 1))
include hAB hBA

theorem summer_next (y : Int) : ∀ n : Nat, B y < A (y + 1 + n)
  | 0 => by have := hBA y; simpa using this
  | n + 1 => by
    have h1 := summer_next y n
    have h2 := hAB (y + 1 + n)
    have h3 := hBA (y + 1 + n)
    rw [show y + 1 + ((n + 1 : Nat) : Int) = y + 1 + n + 1 by omega]
    omega

theorem summer_later {y z : Int} (h : y < z) : B y < A z := by
  have := summer_next hAB hBA y (z - y - 1).toNat
  rw [show y + 1 + ((z - y - 1).toNat : Int) = z by omega] at this
  exact this

theorem summer_none {s t : Time} (hst : s ≤ t) (hm : ∀ y, ¬ (s < A y ∧ A y ≤ t) ∧ ¬ (s < B y ∧ B y ≤ t)) : InSummer A B s ↔ InSummer A B t := by
  constructor
  · rintro ⟨y, h1, h2⟩
    have := (hm y).2
    exact ⟨y, by omega, by omega⟩
  · rintro ⟨y, h1, h2⟩
    have := (hm y).1
    exact ⟨y, by omega, by omega⟩

theorem summer_first {s u : Time} (hsu : s < u) (hu : ∃ y, u = A y ∨ u = B y) (hm : ∀ y, (s < A y → u ≤ A y) ∧ (s < B y → u ≤ B y)) :
    InSummer A B s ↔ ¬ InSummer A B u := by
  obtain ⟨y, rfl | rfl⟩ := hu
  · have h1 : InSummer A B (A y) := ⟨y, Int.le_refl _, hAB y⟩
    constructor
    · rintro ⟨z, z1, z2⟩
      exfalso
      have q := (hm z).2 z2
      rcases Int.lt_trichotomy z y with h | h | h
      · have := summer_later hAB hBA h; omega
      · subst h; omega
      · have := summer_later hAB hBA h
        have := hAB y
        have := hAB z
        omega
    · exact fun h => absurd h1 h
  · have h1 : ¬ InSummer A B (B y) := by
      rintro ⟨z, z1, z2⟩
      rcases Int.lt_trichotomy z y with h | h | h
      · have := summer_later hAB hBA h
        have := hAB y
        omega
      · subst h; omega
      · have := summer_later hAB hBA h; omega
    refine ⟨fun _ => h1, fun _ => ⟨y, ?_, hsu⟩⟩
    have := (hm y).1
    have := hAB y
    omega

/-- Summers and winters alternate with the marks. -/
theorem summer_parity : ∀ (ms : List Time) (s t : Time), s ≤ t → ms.Pairwise (· < ·) →
    (∀ u, u ∈ ms ↔ ((∃ y, u = A y ∨ u = B y) ∧ s < u ∧ u ≤ t)) → (ms.length % 2 = 0 ↔ (InSummer A B s ↔ InSummer A B t))
  | [], s, t, hst, _, hm => by
    have : InSummer A B s ↔ InSummer A B t := summer_none hAB hBA hst (by
      intro y
      constructor
      · intro h
        have := (hm (A y)).2 ⟨⟨y, .inl rfl⟩, h⟩
        cases this
      · intro h
        have := (hm (B y)).2 ⟨⟨y, .inr rfl⟩, h⟩
        cases this)
    simp [this]
  | u :: us, s, t, hst, hp, hm => by
    rw [List.pairwise_cons] at hp
    obtain ⟨u1, u2, u3⟩ := (hm u).1 (by simp)
    have hfirst : ∀ v, (∃ y, v = A y ∨ v = B y) → s < v → u ≤ v := by
      intro v hv hsv
      rcases Int.lt_or_le t v with h | h
      · omega
      · have := (hm v).2 ⟨hv, hsv, h⟩
        rcases List.mem_cons.1 this with rfl | h'
        · exact Int.le_refl _
        · have := hp.1 v h'; omega
    have ih := summer_parity us u t u3 hp.2 (by
      intro v
      constructor
      · intro hv
        obtain ⟨v1, v2, v3⟩ := (hm v).1 (by simp [hv])
        exact ⟨v1, hp.1 v hv, v3⟩
      · rintro ⟨v1, v2, v3⟩
        have := (hm v).2 ⟨v1, by omega, v3⟩
        rcases List.mem_cons.1 this with rfl | h'
        · omega
        · exact h')
    have hf := summer_first hAB hBA u2 u1 (fun y => ⟨hfirst _ ⟨y, .inl rfl⟩, hfirst _ ⟨y, .inr rfl⟩⟩)
    rw [List.length_cons]
    have hpar : (us.length + 1) % 2 = 0 ↔ ¬ (us.length % 2 = 0) := by omega
    rw [hpar, ih]
    by_cases h1 : InSummer A B s <;> by_cases h2 : InSummer A B t <;> by_cases h3 : InSummer A B u <;> simp_all

end summer

end TB
