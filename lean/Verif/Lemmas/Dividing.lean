import Verif.Spec.Dividing
import Verif.Lemmas.Dangles
import Verif.Lemmas.Notation
import Verif.Lemmas.Construct
/-! The division of a span: the reference program agrees with the code. -/
namespace TB

theorem spansBetween_retouch (a a' b : Int) (ps : List Int) :
    spansBetween a b ps = match spansBetween a' b ps with
      | [] => []
      | x :: r => { x with first := a } :: r := by
  cases ps <;> rfl

theorem groups_range (p : Int → Bool) (b : Int) : ∀ (n : Nat) (a : Int), b = a + n →
    (groups p (intRange a (b + 1))).map (fun g => ({ first := g.headD 0, last := g.getLastD 0 } : Span)) =
      spansBetween a b ((intRange (a + 1) (b + 1)).filter p) ∧ ∃ g gs, groups p (intRange a (b + 1)) = g :: gs ∧ g.headD 0 = a ∧ g ≠ [] := by
  intro n
  induction n with
  | zero =>
    intro a h
    have h : b = a := by omega
    subst h
    rw [intRange_cons (by omega), intRange_empty (Int.le_refl _)]
    exact ⟨rfl, [b], [], rfl, rfl, by simp⟩
  | succ n ih =>
    intro a h
    obtain ⟨h1, g, gs, h2, h3, h4⟩ := ih (a + 1) (by omega)
    rw [intRange_cons (show a < b + 1 by omega)]
    have e2 : groups p (a :: intRange (a + 1) (b + 1)) = if p (a + 1) then [a] :: g :: gs else (a :: g) :: gs := by
      simp only [groups, h2, h3]
    rw [e2]
    rw [h2] at h1
    rw [show (intRange (a + 1) (b + 1)).filter p = if p (a + 1) then (a + 1) :: (intRange (a + 1 + 1) (b + 1)).filter p
      else (intRange (a + 1 + 1) (b + 1)).filter p by rw [intRange_cons (show a + 1 < b + 1 by omega), List.filter_cons]]
    by_cases hp : p (a + 1) = true
    · rw [if_pos hp, if_pos hp]
      refine ⟨?_, _, _, rfl, rfl, by simp⟩
      rw [List.map_cons, h1]
      simp only [spansBetween, List.headD, List.getLastD, List.getLast]
      congr 2
      omega
    · rw [if_neg hp, if_neg hp]
      refine ⟨?_, _, _, rfl, rfl, by simp⟩
      rw [spansBetween_retouch a (a + 1), ← h1, List.map_cons, List.map_cons]
      simp only
      congr 2
      cases g with
      | nil => exact absurd rfl h4
      | cons x g => rfl

theorem Frame.createSubspans_divide {f : Frame} {s : Span} (pts : List Time) (h0 : 0 ≤ s.first) (h1 : s.first ≤ s.last) (h2 : s.last < f.n) :
    f.createSubspans s pts = .ok (f.divide s pts) := by
  refine Frame.createSubspans_ok_iff.2 ⟨h0, h1, h2, ?_⟩
  unfold Frame.divide
  refine ((groups_range _ s.last (s.last - s.first).toNat s.first (by omega)).1).trans ?_
  congr 1
  apply eq_of_pairwise_lt ((pairwise_intRange _ _).filter _) (pairwise_sortedSet _)
  intro x
  rw [mem_sortedSet, Frame.mem_getLocVectorized h0 h2, List.mem_filter, mem_intRange, List.any_eq_true]
  unfold Frame.fallsIn Frame.noticedEnd
  constructor
  · rintro ⟨⟨a1, a2⟩, t, ht, hd⟩
    simp only [decide_eq_true_eq] at hd
    refine ⟨by omega, by omega, t, ht, hd.1, ?_⟩
    by_cases he : x = (f.n : Int) - 1
    · rw [if_pos he] at hd ⊢
      exact hd.2
    · rw [if_neg he] at hd ⊢
      have := f.unitEnd_eq x
      omega
  · rintro ⟨a1, a2, t, ht, b1, b2⟩
    refine ⟨⟨by omega, by omega⟩, t, ht, ?_⟩
    simp only [decide_eq_true_eq]
    refine ⟨b1, ?_⟩
    by_cases he : x = (f.n : Int) - 1
    · rw [if_pos he] at b2 ⊢
      exact b2
    · rw [if_neg he] at b2 ⊢
      have := f.unitEnd_eq x
      omega

theorem divide_skips (f : Frame) (s : Span) (pts : List Time) : ∀ x ∈ f.divide s pts, x.skipLeft = 0 ∧ x.skipRight = 0 := by
  intro x hx
  unfold Frame.divide at hx
  obtain ⟨g, _, rfl⟩ := List.mem_map.1 hx
  exact ⟨rfl, rfl⟩

/-! ### Dangles -/

theorem setFirstSkip_get (x : Int) (ss : List Span) (k : Nat) :
    (setFirstSkip x ss)[k]? = (ss[k]?).map (fun s => if k = 0 then { s with skipLeft := x } else s) := by
  cases ss with
  | nil => rfl
  | cons s ss =>
    cases k with
    | zero => rfl
    | succ k => simp [setFirstSkip]

theorem setLastSkip_get (x : Int) : ∀ (ss : List Span) (k : Nat),
    (setLastSkip x ss)[k]? = (ss[k]?).map (fun s => if k + 1 = ss.length then { s with skipRight := x } else s)
  | [], _ => rfl
  | [s], k => by
    cases k with
    | zero => rfl
    | succ k => simp [setLastSkip]
  | s :: t :: r, k => by
    cases k with
    | zero => simp [setLastSkip]
    | succ k =>
      have := setLastSkip_get x (t :: r) k
      simp only [setLastSkip, List.getElem?_cons_succ, this, List.length_cons, Nat.add_right_cancel_iff]

theorem length_setFirstSkip (x : Int) (ss : List Span) : (setFirstSkip x ss).length = ss.length := by
  cases ss <;> rfl

theorem skips_eq {l r : Int} {ss : List Span} (h : ∀ x ∈ ss, x.skipLeft = 0 ∧ x.skipRight = 0) :
    setLastSkip r (setFirstSkip l ss) = withSkips l r ss := by
  apply List.ext_getElem?
  intro k
  rw [setLastSkip_get, setFirstSkip_get, length_setFirstSkip]
  unfold withSkips
  rw [List.getElem?_mapIdx]
  cases hk : ss[k]? with
  | none => rfl
  | some x =>
    have hx := h x (List.mem_of_getElem? hk)
    simp only [Option.map_some, Option.some.injEq]
    obtain ⟨a, b, c, d⟩ := x
    simp only at hx
    obtain ⟨rfl, rfl⟩ := hx
    split <;> split <;> simp_all

/-- Counting the base units of the left dangle, for base units of any multiplier. -/
theorem countDifference_before {f : Frame} {first : Int} (h0 : 0 ≤ first) (h1 : first < f.n) {t : Time} (ht : t ≤ f.unitStart first) :
    countDifference (periodRange f.freq t (f.unitStart first)) (f.ords.drop first.toNat) = f.unitsBefore first t := by
  have e1 : f.freq.base.ordOf (f.unitStart first) = f.ord first := by unfold Frame.unitStart; rw [Base.ordOf_startOf]
  have h2 : f.freq.base.ordOf t ≤ f.ord first := by rw [← e1]; exact Base.ordOf_mono _ ht
  have hm : (0 : Int) < f.freq.mult := by have := f.freq.mult_pos; omega
  have hmem : ∀ o, o ≤ f.ord first → (o ∈ f.ords.drop first.toNat ↔ o = f.ord first) := by
    intro o ho
    rw [List.mem_drop_iff_getElem]
    constructor
    · rintro ⟨j, hj, rfl⟩
      rw [f.getElem_ords] at ho ⊢
      rw [f.length_ords] at hj
      have : f.ord first ≤ f.ord ((first.toNat + j : Nat) : Int) := Frame.ord_le (by omega)
      omega
    · rintro rfl
      refine ⟨0, by rw [f.length_ords]; omega, ?_⟩
      rw [f.getElem_ords]
      congr 1
      omega
  unfold countDifference periodRange Frame.unitsBefore
  simp only [e1]
  rw [if_neg (by omega)]
  generalize f.freq.base.ordOf t = a at *
  generalize f.ord first = S at *
  generalize (f.freq.mult : Int) = m at *
  have hq0 : 0 ≤ (S - a) / m := Int.ediv_nonneg (by omega) (by omega)
  obtain ⟨q, hq⟩ : ∃ q : Nat, (S - a) / m = q := ⟨_, (Int.toNat_of_nonneg hq0).symm⟩
  have hq1 : m * q ≤ S - a := by rw [← hq]; exact Int.mul_ediv_self_le (by omega)
  have hq2 : S - a < m * q + m := by rw [← hq]; exact Int.lt_mul_ediv_self_add (by omega)
  have hle : ∀ i : Nat, i ≤ q → m * (i : Int) ≤ m * q := fun i hi => Int.mul_le_mul_of_nonneg_left (by omega) (by omega)
  rw [hq, show ((q : Int) + 1).toNat = q + 1 by omega, List.range_succ, List.map_append, List.filter_append, List.length_append]
  have hfst : ((List.range q).map (fun (i : Nat) => a + m * (i : Int))).filter (fun o => !(f.ords.drop first.toNat).contains o) =
      (List.range q).map (fun (i : Nat) => a + m * (i : Int)) := by
    rw [List.filter_eq_self]
    intro o ho
    obtain ⟨i, hi, rfl⟩ := List.mem_map.1 ho
    rw [List.mem_range] at hi
    have h3 := hle (i + 1) (by omega)
    rw [Int.natCast_add, Int.mul_add] at h3
    rw [Bool.not_eq_true', ← Bool.not_eq_true, List.contains_iff_mem, hmem _ (by omega)]
    omega
  rw [hfst, List.length_map, List.length_range]
  simp only [List.map_cons, List.map_nil, List.filter_cons, List.filter_nil]
  by_cases he : a + m * (q : Int) = S
  · have hc : (f.ords.drop first.toNat).contains (a + m * (q : Int)) = true := by
      rw [List.contains_iff_mem, hmem _ (by omega)]; exact he
    rw [hc]
    simp only [Bool.not_true, Bool.false_eq_true, if_false, List.length_nil, Nat.add_zero]
    rw [show a - S = m * (-(q : Int)) by rw [Int.mul_neg]; omega, Int.mul_ediv_cancel_left _ (by omega)]
    omega
  · have hc : (f.ords.drop first.toNat).contains (a + m * (q : Int)) = false := by
      rw [← Bool.not_eq_true, List.contains_iff_mem, hmem _ (by omega)]; exact he
    rw [hc]
    simp only [Bool.not_false, if_true, List.length_singleton]
    have : (a - S) / m = -(q : Int) - 1 := by
      rw [show a - S = (a - S + m * q + m) + m * (-(q : Int) - 1) by rw [Int.mul_sub, Int.mul_neg]; omega]
      rw [Int.add_mul_ediv_left _ _ (by omega), Int.ediv_eq_zero_of_lt (by omega) (by omega)]
      omega
    omega

theorem Frame.skipBefore_units {f : Frame} {s : Span} {st : Stencil} (h0 : 0 ≤ s.first) (h1 : s.first < f.n) (hd : st.leftUndefined = false)
    (ht : st.leftBound ≤ f.unitStart s.first) : f.skipBefore s st (f.unitStart s.first) = f.unitsBefore s.first st.leftBound := by
  unfold Frame.skipBefore
  rw [hd]
  simp only [Bool.false_eq_true, if_false]
  split
  · exact countDifference_before h0 h1 ht
  · rename_i hn
    have : st.leftBound = f.unitStart s.first := by omega
    rw [this]
    unfold Frame.unitsBefore Frame.unitStart
    rw [Base.ordOf_startOf, Int.sub_self, Int.zero_ediv]
    rfl

theorem Frame.skipAfter_units {f : Frame} {s : Span} {st : Stencil} (h0 : 0 ≤ s.last) (h1 : s.last < f.n) (hd : st.rightUndefined = false)
    (ht : f.unitEnd s.last ≤ st.rightBound) : f.skipAfter s st (f.unitEnd s.last) = f.unitsAfter s.last st.rightBound := by
  have hse := f.unitStart_le_unitEnd s.last
  unfold Frame.skipAfter
  rw [hd]
  simp only [Bool.false_eq_true, if_false]
  split
  · exact countDifference_right h0 h1 (by omega)
  · rename_i hn
    have : st.rightBound = f.unitEnd s.last := by omega
    rw [this]
    unfold Frame.unitsAfter
    have hm := f.freq.mult_pos
    have e2 : f.freq.base.ordOf (f.unitEnd s.last) = f.ord (s.last + 1) - 1 := by
      rw [Frame.unitEnd_eq]
      unfold Frame.unitStart
      have := f.freq.base.startOf_step (f.ord (s.last + 1) - 1)
      rw [show f.ord (s.last + 1) - 1 + 1 = f.ord (s.last + 1) by omega] at this
      have hns := nsSec_pos
      rw [Base.ordOf_eq_iff, show f.ord (s.last + 1) - 1 + 1 = f.ord (s.last + 1) by omega]
      omega
    have e3 : f.ord (s.last + 1) = f.ord s.last + f.freq.mult := by
      unfold Frame.ord; rw [Int.mul_add]; omega
    rw [e2, e3, Int.ediv_eq_zero_of_lt (by omega) (by omega)]

/-! ### Markers -/

theorem Frame.new_over {g : Freq} {a b : Time} (h1 : g.base.ordOf a ≤ g.base.ordOf b) : Frame.new g a b = .ok (g.periodsOver a b) := by
  unfold Frame.new periodRange Freq.periodsOver
  simp only
  rw [if_neg (by omega)]
  have hq0 : 0 ≤ (g.base.ordOf b - g.base.ordOf a) / (g.mult : Int) := Int.ediv_nonneg (by omega) (by have := g.mult_pos; omega)
  obtain ⟨q, hq⟩ : ∃ q : Nat, (g.base.ordOf b - g.base.ordOf a) / (g.mult : Int) = q := ⟨_, (Int.toNat_of_nonneg hq0).symm⟩
  rw [hq, show ((q : Int) + 1).toNat = q + 1 by omega, List.range_succ_eq_map, List.map_cons]
  simp

theorem Frame.new_periodsOver {g : Freq} {a b : Time} (h : a ≤ b) : Frame.new g a b = .ok (g.periodsOver a b) :=
  Frame.new_over (g.base.ordOf_mono h)

theorem collectAts_deliver (pi : Frame) (bu : Freq) (each : Freq) : ∀ ats, collectAts pi bu ats = Marker.deliver ⟨each, ats⟩ bu pi
  | [] => rfl
  | h :: hs => by
    have ih := collectAts_deliver pi bu each hs
    unfold Marker.deliver at ih ⊢
    simp only [collectAts, List.mapM_cons, Bind.bind, Except.bind, pure, Except.pure] at ih ⊢
    rw [ih]
    cases h pi bu with
    | error e => rfl
    | ok p =>
      simp only
      cases List.mapM (fun how => how pi bu) hs with
      | error e => rfl
      | ok r => simp [Except.map]

theorem Frame.partition_of_stencil {f : Frame} {s : Span} {m : Marker} {st : Stencil} (hc : checkGroupbyFreq f.freq m.each = true)
    (h0 : 0 ≤ s.first) (h1 : s.first ≤ s.last) (h2 : s.last < f.n)
    (hst : f.stencilFor m (f.unitStart s.first) (f.unitEnd s.last) = .ok (some st)) :
    f.partitionWithMarker s m = .ok (withSkips (f.skipBefore s st (f.unitStart s.first)) (f.skipAfter s st (f.unitEnd s.last)) (f.divide s st.points)) := by
  have hcs := Frame.checkSpan_ok_iff.2 ⟨h0, h1, h2⟩
  have hsk := skips_eq (l := f.skipBefore s st (f.unitStart s.first)) (r := f.skipAfter s st (f.unitEnd s.last)) (divide_skips f s st.points)
  rw [← hsk]
  unfold Frame.partitionWithMarker
  simp only [hc, Bool.not_true, Bool.false_eq_true, if_false, Bind.bind, Except.bind, pure, Except.pure, hcs, hst,
    Frame.createSubspans_divide st.points h0 h1 h2]

theorem Frame.unitStart_monotone {f : Frame} {i j : Int} (h : i ≤ j) : f.unitStart i ≤ f.unitStart j := by
  rcases Int.lt_or_le i j with h1 | h1
  · exact Int.le_of_lt (Frame.unitStart_lt h1)
  · rw [show i = j by omega]; exact Int.le_refl _

theorem Frame.divide_congr (f : Frame) {s : Span} {ts us : List Time} (h1 : s.first ≤ s.last)
    (h : ∀ t, f.unitStart s.first < t → t ≤ f.unitEnd s.last → (t ∈ ts ↔ t ∈ us)) : f.divide s ts = f.divide s us := by
  unfold Frame.divide
  rw [(groups_range _ s.last (s.last - s.first).toNat s.first (by omega)).1, (groups_range _ s.last (s.last - s.first).toNat s.first (by omega)).1]
  congr 1
  apply List.filter_congr
  intro x hx
  rw [mem_intRange] at hx
  rw [Bool.eq_iff_iff, List.any_eq_true, List.any_eq_true]
  have key : ∀ t, f.fallsIn x t = true → f.unitStart s.first < t ∧ t ≤ f.unitEnd s.last := by
    intro t ht
    unfold Frame.fallsIn at ht
    rw [decide_eq_true_eq] at ht
    have a1 : f.unitStart s.first < f.unitStart x := Frame.unitStart_lt (by omega)
    have a2 : f.unitEnd x ≤ f.unitEnd s.last := by
      have e1 := f.unitEnd_eq x
      have e2 := f.unitEnd_eq s.last
      have : f.unitStart (x + 1) ≤ f.unitStart (s.last + 1) := Frame.unitStart_monotone (by omega)
      omega
    have a3 : f.unitStart x + nsSec ≤ f.unitEnd x + 1 := by
      have := f.noticedEnd_le x
      unfold Frame.noticedEnd at this
      have e1 := f.unitEnd_eq x
      have e3 := f.freq.base.startOf_step (f.ord x)
      unfold Frame.unitEnd Frame.unitStart
      have hm := f.freq.mult_pos
      have : f.freq.base.startOf (f.ord x + 1) ≤ f.freq.base.startOf (f.ord x + f.freq.mult) := by
        rw [Base.startOf_le_startOf]; omega
      omega
    refine ⟨by omega, ?_⟩
    have := ht.2
    split at this <;> omega
  constructor
  · rintro ⟨t, ht, hf⟩
    obtain ⟨b1, b2⟩ := key t hf
    exact ⟨t, (h t b1 b2).1 ht, hf⟩
  · rintro ⟨t, ht, hf⟩
    obtain ⟨b1, b2⟩ := key t hf
    exact ⟨t, (h t b1 b2).2 ht, hf⟩

theorem max?_filter {pts : List Time} {a x : Time} (h1 : x ∈ pts) (h2 : x ≤ a) (h3 : ∀ y ∈ pts, y ≤ a → y ≤ x) :
    (pts.filter (fun t => decide (t ≤ a))).max? = some x := by
  rw [List.max?_eq_some_iff]
  refine ⟨List.mem_filter.2 ⟨h1, by simpa using h2⟩, fun y hy => ?_⟩
  rw [List.mem_filter, decide_eq_true_eq] at hy
  exact h3 y hy.1 hy.2

theorem min?_filter {pts : List Time} {b x : Time} (h1 : x ∈ pts) (h2 : b ≤ x) (h3 : ∀ y ∈ pts, b ≤ y → x ≤ y) :
    (pts.filter (fun t => decide (b ≤ t))).min? = some x := by
  rw [List.min?_eq_some_iff]
  refine ⟨List.mem_filter.2 ⟨h1, by simpa using h2⟩, fun y hy => ?_⟩
  rw [List.mem_filter, decide_eq_true_eq] at hy
  exact h3 y hy.1 hy.2

theorem Frame.endTime_next (f : Frame) : f.endTime = f.unitStart f.n - 1 := by
  rw [Frame.endTime, Frame.unitEnd_eq, Int.sub_add_cancel]

/-- **The division of a span**: the code does what the reference program does. -/
theorem Frame.cutSpan_eq {f : Frame} {s : Span} (c : Cut) (h0 : 0 ≤ s.first) (h1 : s.first ≤ s.last) (h2 : s.last < f.n) :
    f.cutSpan c s = f.cut s c := by
  cases c with
  | marks ts => exact Frame.createSubspans_divide ts h0 h1 h2
  | marker m =>
    show f.partitionWithMarker s m = _
    have hab : f.unitStart s.first < f.unitEnd s.last := by
      have e2 := f.unitEnd_eq s.last
      have e1 : f.unitStart s.first ≤ f.unitStart s.last := Frame.unitStart_monotone h1
      have e3 := f.freq.base.startOf_step (f.ord s.last)
      have hm := f.freq.mult_pos
      have e4 : f.freq.base.startOf (f.ord s.last + 1) ≤ f.freq.base.startOf (f.ord s.last + f.freq.mult) := by
        rw [Base.startOf_le_startOf]; omega
      have hn : 2 ≤ nsSec := by decide
      have e5 : f.unitEnd s.last = f.freq.base.startOf (f.ord s.last + f.freq.mult) - 1 := rfl
      have e6 : f.unitStart s.last = f.freq.base.startOf (f.ord s.last) := rfl
      omega
    have hd := getFreqDelta_pos m.each
    unfold Frame.cut
    simp only
    by_cases hc : checkGroupbyFreq f.freq m.each = true
    case neg =>
      rw [Bool.not_eq_true] at hc
      rw [if_pos hc]
      unfold Frame.partitionWithMarker
      simp [Bind.bind, Except.bind, throw, throwThe, MonadExceptOf.throw, hc]
    rw [if_neg (by rw [hc]; simp)]
    by_cases hat : m.ats.isEmpty = true
    · rw [if_pos hat]
      have hF := Frame.new_periodsOver (g := m.each) (Int.le_of_lt hab)
      have hst : f.stencilFor m (f.unitStart s.first) (f.unitEnd s.last) = .ok (some
          { leftBound := (m.each.periodsOver (f.unitStart s.first) (f.unitEnd s.last)).startTime
            rightBound := (m.each.periodsOver (f.unitStart s.first) (f.unitEnd s.last)).endTime
            leftUndefined := false, rightUndefined := false
            points := (m.each.periodsOver (f.unitStart s.first) (f.unitEnd s.last)).startTimes }) := by
        unfold Frame.stencilFor
        rw [if_pos hat]
        simp only [Bind.bind, Except.bind, pure, Except.pure, hF]
      rw [Frame.partition_of_stencil hc h0 h1 h2 hst]
      obtain ⟨c1, c2⟩ : (m.each.periodsOver (f.unitStart s.first) (f.unitEnd s.last)).startTime ≤ f.unitStart s.first ∧
          f.unitEnd s.last ≤ (m.each.periodsOver (f.unitStart s.first) (f.unitEnd s.last)).endTime := by
        constructor
        · show m.each.base.startOf (m.each.base.ordOf (f.unitStart s.first) + (m.each.mult : Int) * 0) ≤ _
          rw [Int.mul_zero, Int.add_zero]
          exact m.each.base.startOf_le_self _
        · have hm := m.each.mult_pos
          have ho := m.each.base.ordOf_mono (Int.le_of_lt hab)
          rw [Frame.endTime_next]
          show _ ≤ m.each.base.startOf (m.each.base.ordOf (f.unitStart s.first) + (m.each.mult : Int) *
            ((((m.each.base.ordOf (f.unitEnd s.last) - m.each.base.ordOf (f.unitStart s.first)) / m.each.mult + 1).toNat : Int))) - 1
          have hq0 : 0 ≤ (m.each.base.ordOf (f.unitEnd s.last) - m.each.base.ordOf (f.unitStart s.first)) / (m.each.mult : Int) :=
            Int.ediv_nonneg (by omega) (by omega)
          rw [show ((((m.each.base.ordOf (f.unitEnd s.last) - m.each.base.ordOf (f.unitStart s.first)) / m.each.mult + 1).toNat : Int)) =
            (m.each.base.ordOf (f.unitEnd s.last) - m.each.base.ordOf (f.unitStart s.first)) / m.each.mult + 1 by omega]
          have hq2 : m.each.base.ordOf (f.unitEnd s.last) - m.each.base.ordOf (f.unitStart s.first) < _ :=
            Int.lt_mul_ediv_self_add (k := (m.each.mult : Int)) (by omega)
          have h3 : m.each.base.startOf (m.each.base.ordOf (f.unitEnd s.last) + 1) ≤ m.each.base.startOf (m.each.base.ordOf (f.unitStart s.first) +
              (m.each.mult : Int) * ((m.each.base.ordOf (f.unitEnd s.last) - m.each.base.ordOf (f.unitStart s.first)) / m.each.mult + 1)) := by
            rw [Base.startOf_le_startOf, Int.mul_add]
            omega
          have h4 := (m.each.base.ordOf_eq_iff (t := f.unitEnd s.last) (o := m.each.base.ordOf (f.unitEnd s.last))).1 rfl
          omega
      rw [Frame.skipBefore_units h0 (by omega) rfl c1, Frame.skipAfter_units (by omega) h2 rfl c2]
      simp only
      rw [Frame.endTime_next]
      congr 3
      unfold Frame.startTimes intRange
      rw [List.map_map, Int.sub_zero, Int.toNat_natCast]
      congr 1
      funext k
      simp
    · rw [if_neg hat]
      have hF := Frame.new_periodsOver (g := m.each) (show f.unitStart s.first - getFreqDelta m.each ≤ f.unitEnd s.last + getFreqDelta m.each by omega)
      have hcoll := collectAts_deliver (m.each.periodsOver (f.unitStart s.first - getFreqDelta m.each) (f.unitEnd s.last + getFreqDelta m.each))
        f.freq m.each m.ats
      have hm' : (⟨m.each, m.ats⟩ : Marker) = m := rfl
      rw [hm'] at hcoll
      rw [← hcoll]
      have hst0 : f.stencilFor m (f.unitStart s.first) (f.unitEnd s.last) = match collectAts (m.each.periodsOver (f.unitStart s.first - getFreqDelta m.each) (f.unitEnd s.last + getFreqDelta m.each)) f.freq m.ats with
          | .error e => .error e
          | .ok cand => match (sliceAtPoints (sortList cand) (f.unitStart s.first) (f.unitEnd s.last)).head?,
              (sliceAtPoints (sortList cand) (f.unitStart s.first) (f.unitEnd s.last)).getLast? with
            | some a0, some a1 =>
              .ok (some { leftBound := min a0 (f.unitStart s.first), leftUndefined := decide (a0 > f.unitStart s.first)
                          rightBound := max (f.unitEnd s.last) (a1 - nsSec), rightUndefined := decide (a1 < f.unitEnd s.last)
                          points := sliceAtPoints (sortList cand) (f.unitStart s.first) (f.unitEnd s.last) })
            | _, _ => .ok none := by
        unfold Frame.stencilFor
        rw [if_neg hat]
        simp only [Bind.bind, Except.bind, pure, Except.pure, hF]
        cases collectAts (m.each.periodsOver (f.unitStart s.first - getFreqDelta m.each) (f.unitEnd s.last + getFreqDelta m.each)) f.freq m.ats with
        | error e => rfl
        | ok cand =>
          simp only
          cases (sliceAtPoints (sortList cand) (f.unitStart s.first) (f.unitEnd s.last)).head? <;>
            cases (sliceAtPoints (sortList cand) (f.unitStart s.first) (f.unitEnd s.last)).getLast? <;> rfl
      have hcs := Frame.checkSpan_ok_iff.2 ⟨h0, h1, h2⟩
      cases hcand : collectAts (m.each.periodsOver (f.unitStart s.first - getFreqDelta m.each) (f.unitEnd s.last + getFreqDelta m.each)) f.freq m.ats with
      | error e =>
        rw [hcand] at hst0
        simp only at hst0
        unfold Frame.partitionWithMarker
        simp only [hc, Bool.not_true, Bool.false_eq_true, if_false, Bind.bind, Except.bind, pure, Except.pure, hcs, hst0]
      | ok cand =>
        rw [hcand] at hst0
        simp only at hst0
        by_cases hnil : cand = []
        · subst hnil
          have hsl : sliceAtPoints (sortList []) (f.unitStart s.first) (f.unitEnd s.last) = [] := by simp [sortList, sliceAtPoints]
          rw [hsl] at hst0
          simp only [List.head?_nil, List.getLast?_nil] at hst0
          unfold Frame.partitionWithMarker
          simp only [hc, Bool.not_true, Bool.false_eq_true, if_false, Bind.bind, Except.bind, pure, Except.pure, hcs, hst0]
        · have hsp := pairwise_sortList cand
          have hmem := fun x => mem_sliceAtPoints_iff' (x := x) hsp hab
          obtain ⟨a0, ha0, hleft⟩ : ∃ a0, (sliceAtPoints (sortList cand) (f.unitStart s.first) (f.unitEnd s.last)).head? = some a0 ∧
              ((a0 ≤ f.unitStart s.first ∧ (cand.filter (fun t => decide (t ≤ f.unitStart s.first))).max? = some a0) ∨
               (f.unitStart s.first < a0 ∧ (cand.filter (fun t => decide (t ≤ f.unitStart s.first))).max? = none)) := by
            by_cases hx : ∃ x ∈ sortList cand, x ≤ f.unitStart s.first
            · obtain ⟨x, g1, g2, g3, g4⟩ := sliceAtPoints_head hsp hab hx
              exact ⟨x, g1, .inl ⟨g3, max?_filter ((mem_sortList _ _).1 g2) g3 (fun y hy => g4 y ((mem_sortList _ _).2 hy))⟩⟩
            · have hall : ∀ t ∈ cand, f.unitStart s.first < t := fun t ht => by
                refine Int.not_le.1 (fun hle => hx ⟨t, (mem_sortList t cand).2 ht, hle⟩)
              have hne : sliceAtPoints (sortList cand) (f.unitStart s.first) (f.unitEnd s.last) ≠ [] := by
                obtain ⟨z, zs, hz⟩ : ∃ z zs, sortList cand = z :: zs := by
                  cases hs : sortList cand with
                  | nil =>
                    obtain ⟨y, hy⟩ := List.exists_mem_of_ne_nil _ hnil
                    have := (mem_sortList y cand).2 hy
                    rw [hs] at this; cases this
                  | cons z zs => exact ⟨z, zs, rfl⟩
                apply List.ne_nil_of_mem (a := z)
                rw [hmem]
                refine ⟨by rw [hz]; exact List.mem_cons_self, fun y hy _ => hall y ((mem_sortList _ _).1 hy), fun y hy hlt => ?_⟩
                rw [hz] at hsp hy
                rcases List.mem_cons.1 hy with rfl | hy
                · omega
                · have := (List.pairwise_cons.1 hsp).1 y hy
                  omega
              obtain ⟨a0, ha0⟩ : ∃ a0, (sliceAtPoints (sortList cand) (f.unitStart s.first) (f.unitEnd s.last)).head? = some a0 :=
                ⟨_, List.head?_eq_some_head hne⟩
              refine ⟨a0, ha0, .inr ⟨hall a0 ((mem_sortList a0 cand).1 (sliceAtPoints_sub (List.mem_of_mem_head? (by rw [ha0]; rfl)))), ?_⟩⟩
              rw [List.max?_eq_none_iff, List.filter_eq_nil_iff]
              intro t ht
              have := hall t ht
              simp only [decide_eq_true_eq]
              omega
          obtain ⟨a1, ha1, hright⟩ : ∃ a1, (sliceAtPoints (sortList cand) (f.unitStart s.first) (f.unitEnd s.last)).getLast? = some a1 ∧
              ((f.unitEnd s.last ≤ a1 ∧ (cand.filter (fun t => decide (f.unitEnd s.last ≤ t))).min? = some a1) ∨
               (a1 < f.unitEnd s.last ∧ (cand.filter (fun t => decide (f.unitEnd s.last ≤ t))).min? = none)) := by
            by_cases hx : ∃ x ∈ sortList cand, f.unitEnd s.last ≤ x
            · obtain ⟨x, g1, g2, g3, g4⟩ := sliceAtPoints_last hsp hab hx
              exact ⟨x, g1, .inl ⟨g3, min?_filter ((mem_sortList _ _).1 g2) g3 (fun y hy => g4 y ((mem_sortList _ _).2 hy))⟩⟩
            · have hall : ∀ t ∈ cand, t < f.unitEnd s.last := fun t ht => by
                refine Int.not_le.1 (fun hle => hx ⟨t, (mem_sortList t cand).2 ht, hle⟩)
              have hne : sliceAtPoints (sortList cand) (f.unitStart s.first) (f.unitEnd s.last) ≠ [] := by
                intro h; rw [h] at ha0; cases ha0
              obtain ⟨a1, ha1⟩ : ∃ a1, (sliceAtPoints (sortList cand) (f.unitStart s.first) (f.unitEnd s.last)).getLast? = some a1 :=
                ⟨_, List.getLast?_eq_some_getLast hne⟩
              refine ⟨a1, ha1, .inr ⟨hall a1 ((mem_sortList a1 cand).1 (sliceAtPoints_sub (List.mem_of_getLast? ha1))), ?_⟩⟩
              rw [List.min?_eq_none_iff, List.filter_eq_nil_iff]
              intro t ht
              have := hall t ht
              simp only [decide_eq_true_eq]
              omega
          rw [ha0, ha1] at hst0
          simp only at hst0
          rw [Frame.partition_of_stencil hc h0 h1 h2 hst0]
          cases cand with
          | nil => exact absurd rfl hnil
          | cons c cs =>
            simp only
            have hdiv : f.divide s (sliceAtPoints (sortList (c :: cs)) (f.unitStart s.first) (f.unitEnd s.last)) = f.divide s (c :: cs) := by
              apply f.divide_congr h1
              intro t g1 g2
              rw [hmem, mem_sortList]
              exact ⟨fun h => h.1, fun h => ⟨h, fun y _ hy => by omega, fun y _ hy => by omega⟩⟩
            rw [hdiv]
            congr 2
            · rcases hleft with ⟨g1, g2⟩ | ⟨g1, g2⟩
              · rw [g2]
                rw [Frame.skipBefore_units h0 (by omega) (by simp only [decide_eq_false_iff_not]; omega) (Int.min_le_right _ _)]
                simp only
                rw [show min a0 (f.unitStart s.first) = a0 by omega]
              · rw [g2]
                unfold Frame.skipBefore
                simp only
                rw [if_pos (by simpa using g1)]
            · rcases hright with ⟨g1, g2⟩ | ⟨g1, g2⟩
              · rw [g2]
                rw [Frame.skipAfter_units (by omega) h2 (by simp only [decide_eq_false_iff_not]; omega) (Int.le_max_left _ _)]
              · rw [g2]
                unfold Frame.skipAfter
                simp only
                rw [if_pos (by simpa using g1)]

end TB
