import Verif.Spec.TwoGoes
import Verif.Lemmas.Nested
/-! A span divided in two goes. -/
namespace TB
variable {L : Type}

theorem groups_cons_ne (p : Int → Bool) (i : Int) (l : List Int) : ∃ g gs, groups p (i :: l) = g :: gs ∧ g.headD 0 = i := by
  unfold groups
  cases groups p l with
  | nil => exact ⟨[i], [], rfl, rfl⟩
  | cons g gs =>
    simp only
    split
    · exact ⟨_, _, rfl, rfl⟩
    · exact ⟨_, _, rfl, rfl⟩

theorem groups_append (p : Int → Bool) {i : Int} (hi : p i = true) (l2 : List Int) : ∀ l1, groups p (l1 ++ i :: l2) = groups p l1 ++ groups p (i :: l2)
  | [] => rfl
  | [j] => by
    obtain ⟨g, gs, h1, h2⟩ := groups_cons_ne p i l2
    show groups p (j :: i :: l2) = [[j]] ++ _
    rw [show groups p (j :: i :: l2) = (match groups p (i :: l2) with
      | [] => [[j]]
      | g :: gs => if p (g.headD 0) then [j] :: g :: gs else (j :: g) :: gs) from rfl, h1]
    simp only [h2, hi, if_true]
    rfl
  | j :: j' :: l1 => by
    have ih := groups_append p hi l2 (j' :: l1)
    obtain ⟨g, gs, h1, h2⟩ := groups_cons_ne p j' l1
    rw [List.cons_append, show groups p (j :: (j' :: l1 ++ i :: l2)) = (match groups p (j' :: l1 ++ i :: l2) with
      | [] => [[j]]
      | g :: gs => if p (g.headD 0) then [j] :: g :: gs else (j :: g) :: gs) from rfl, ih,
      show groups p (j :: j' :: l1) = (match groups p (j' :: l1) with
      | [] => [[j]]
      | g :: gs => if p (g.headD 0) then [j] :: g :: gs else (j :: g) :: gs) from rfl, h1]
    simp only [List.cons_append, h2]
    split <;> rfl

theorem groups_marked (p : Int → Bool) : ∀ (l : List Int) (k : Nat) (g : List Int), (groups p l)[k + 1]? = some g → p (g.headD 0) = true
  | [], k, g, h => by simp [groups] at h
  | i :: is, k, g, h => by
    have ih := groups_marked p is
    unfold groups at h
    cases hg : groups p is with
    | nil => rw [hg] at h; simp at h
    | cons g' gs =>
      rw [hg] at h
      simp only at h
      split at h
      · rename_i hp
        rw [List.getElem?_cons_succ] at h
        cases k with
        | zero => rw [List.getElem?_cons_zero] at h; cases h; exact hp
        | succ k => exact ih k g (by rw [hg]; exact h)
      · rw [List.getElem?_cons_succ] at h
        exact ih k g (by rw [hg, List.getElem?_cons_succ]; exact h)

theorem Frame.divide_tiles {f : Frame} {s : Span} (hs : s.Within f.n) (marks : List Time) : Tiles s.first s.last (f.divide s marks) :=
  (Frame.cut_within (c := .marks marks) hs rfl).1

/-- A part begins with a base unit in which a mark falls. -/
theorem Frame.divide_marked {f : Frame} {s : Span} {marks : List Time} {k : Nat} (hk : 0 < k) {x : Span} (hx : (f.divide s marks)[k]? = some x) :
    ∃ t ∈ marks, f.fallsIn x.first t = true := by
  unfold Frame.divide at hx
  rw [List.getElem?_map, Option.map_eq_some_iff] at hx
  obtain ⟨g, g1, rfl⟩ := hx
  obtain ⟨j, rfl⟩ : ∃ j, k = j + 1 := ⟨k - 1, by omega⟩
  have := groups_marked _ _ j g g1
  rw [List.any_eq_true] at this
  exact this

theorem Frame.divide_two {f : Frame} {s : Span} (hs : s.Within f.n) {marks : List Time} {k : Nat} (hk : 0 < k) {x : Span}
    (hx : (f.divide s marks)[k]? = some x) :
    s.first < x.first ∧ x.first ≤ s.last ∧ f.divide { first := s.first, last := x.first - 1 } marks = (f.divide s marks).take k ∧
    f.divide { first := x.first, last := s.last } marks = (f.divide s marks).drop k := by
  have ht := Frame.divide_tiles (f := f) hs marks
  have hm := ht.mem (List.mem_of_getElem? hx)
  obtain ⟨y, hy⟩ : ∃ y, (f.divide s marks)[0]? = some y := by
    exact ⟨_, List.getElem?_eq_getElem (List.length_pos_iff.2 ht.ne_nil)⟩
  have h0 := ht.lt_of_index hk hy hx
  have h1 := ht.first_zero hy
  have h2 := ht.mem (List.mem_of_getElem? hy)
  have hlt : s.first < x.first := by omega
  obtain ⟨t, t1, t2⟩ := Frame.divide_marked hk hx
  have e : f.divide s marks = f.divide { first := s.first, last := x.first - 1 } marks ++ f.divide { first := x.first, last := s.last } marks := by
    unfold Frame.divide
    simp only
    rw [← List.map_append, ← intRange_append (a := s.first) (b := x.first) (c := s.last + 1) (by omega) (by omega), Int.sub_add_cancel,
      intRange_cons (show x.first < s.last + 1 by omega), groups_append _ (List.any_eq_true.2 ⟨t, t1, t2⟩)]
  have hl : (f.divide { first := s.first, last := x.first - 1 } marks).length = k := by
    have ht2 := Frame.divide_tiles (f := f) (s := { first := x.first, last := s.last }) ⟨by have := hs.1; simp only; omega, by simp only; omega, hs.2.2⟩ marks
    obtain ⟨z, hz⟩ : ∃ z, (f.divide { first := x.first, last := s.last } marks)[0]? = some z := by
      exact ⟨_, List.getElem?_eq_getElem (List.length_pos_iff.2 ht2.ne_nil)⟩
    have hz1 := ht2.first_zero hz
    have hz2 := ht2.mem (List.mem_of_getElem? hz)
    have hz' : (f.divide s marks)[(f.divide { first := s.first, last := x.first - 1 } marks).length]? = some z := by
      rw [e, List.getElem?_append_right (Nat.le_refl _), Nat.sub_self]; exact hz
    exact ht.disjoint hz' hx (i := x.first) (by simp only at hz1; omega) (by simp only at hz1; omega) (by omega) (by omega)
  refine ⟨hlt, by omega, ?_, ?_⟩
  · rw [e, ← hl, List.take_left]
  · rw [e, ← hl, List.drop_left]

/-- A span without the number of base units missing after it. -/
def Span.core (s : Span) : Span := { s with skipRight := 0 }

theorem withSkips_take (l r r' : Int) (ss : List Span) {k : Nat} : ((withSkips l r ss).take k).map Span.core = (withSkips l r' (ss.take k)).map Span.core := by
  apply List.ext_getElem?
  intro i
  unfold withSkips
  simp only [List.getElem?_map, List.getElem?_take, List.getElem?_mapIdx]
  split
  · cases ss[i]? <;> rfl
  · rfl

theorem withSkips_drop (l r r' : Int) (ss : List Span) {k : Nat} (hk : 0 < k) :
    ((withSkips l r ss).drop k).map Span.core = (withSkips 0 r' (ss.drop k)).map Span.core := by
  apply List.ext_getElem?
  intro i
  unfold withSkips
  simp only [List.getElem?_map, List.getElem?_drop, List.getElem?_mapIdx]
  rw [if_neg (by omega)]
  cases ss[k + i]? <;> simp [Span.core]

theorem Freq.mem_starts {g : Freq} {a b : Time} (h : a ≤ b) (t : Time) :
    t ∈ (intRange 0 (g.periodsOver a b).n).map (g.periodsOver a b).unitStart ↔
      ∃ j : Int, 0 ≤ j ∧ t = g.base.startOf (g.base.ordOf a + g.mult * j) ∧ t ≤ b := by
  have hm := g.mult_pos
  have ho := g.base.ordOf_mono h
  rw [List.mem_map]
  have key : ∀ j : Int, 0 ≤ j → (j < (g.periodsOver a b).n ↔ g.base.startOf (g.base.ordOf a + g.mult * j) ≤ b) := by
    intro j hj
    rw [Base.startOf_le_iff]
    unfold Freq.periodsOver
    simp only
    have h1 : 0 ≤ (g.base.ordOf b - g.base.ordOf a) / (g.mult : Int) := Int.ediv_nonneg (by omega) (by omega)
    rw [Int.toNat_of_nonneg (by omega), Int.lt_add_one_iff, Int.le_ediv_iff_mul_le (by omega), Int.mul_comm]
    omega
  constructor
  · rintro ⟨j, j1, rfl⟩
    rw [mem_intRange] at j1
    exact ⟨j, j1.1, rfl, (key j j1.1).1 j1.2⟩
  · rintro ⟨j, j1, rfl, j3⟩
    exact ⟨j, (mem_intRange _ _ _).2 ⟨j1, (key j j1).2 j3⟩, rfl⟩

theorem Frame.unitsBefore_self (f : Frame) (i : Int) : f.unitsBefore i (f.unitStart i) = 0 := by
  unfold Frame.unitsBefore
  rw [show f.freq.base.ordOf (f.unitStart i) = f.ord i from Base.ordOf_startOf _ _]
  simp

/-- What a regular marker delivers. -/
theorem Marker.Regular.deliver {bu : Freq} {m : Marker} (hr : m.Regular bu) {a b : Time} (h : a ≤ b) :
    ∃ pts, m.deliver bu (m.each.periodsOver a b) = .ok pts ∧
      ∀ t, t ∈ pts ↔ (m.Mark bu t ∧ m.each.base.ordOf a ≤ m.each.base.ordOf t ∧ m.each.base.ordOf t ≤ m.each.base.ordOf b) := by
  obtain ⟨cand, h1, h2⟩ := collectAts_regular (pi := m.each.periodsOver a b) rfl (Freq.periodsOver_pos h) hr.each
  refine ⟨cand, by rw [← h1, collectAts_deliver _ _ m.each], ?_⟩
  intro t
  rw [h2]
  have e1 : (m.each.periodsOver a b).o0 = m.each.base.ordOf a := rfl
  have e2 : ((m.each.periodsOver a b).n : Int) = m.each.base.ordOf b - m.each.base.ordOf a + 1 := by
    have := m.each.base.ordOf_mono h
    unfold Freq.periodsOver
    simp only [hr.mult, Int.natCast_one, Int.ediv_one]
    omega
  have key : ∀ g ∈ m.ats, ∀ o, t ∈ howAt g m.each bu o → o = m.each.base.ordOf t := by
    intro g hg o ht
    obtain ⟨w1, w2, _⟩ := hr.within g hg o t ht
    exact ((Base.ordOf_eq_iff _ _ _).2 ⟨w1, w2⟩).symm
  rw [e1, e2]
  constructor
  · rintro ⟨g, hg, o, o1, o2, ht⟩
    have := key g hg o ht
    exact ⟨⟨o, g, hg, ht⟩, by omega, by omega⟩
  · rintro ⟨⟨o, g, hg, ht⟩, o1, o2⟩
    have := key g hg o ht
    exact ⟨g, hg, o, by omega, by omega, ht⟩

theorem max?_congr {xs ys : List Time} (h : ∀ t, t ∈ xs ↔ t ∈ ys) : xs.max? = ys.max? := by
  cases hx : xs.max? with
  | none =>
    rw [List.max?_eq_none_iff] at hx
    subst hx
    cases ys with
    | nil => rfl
    | cons y ys => exact absurd ((h y).2 (by simp)) (by simp)
  | some x =>
    rw [List.max?_eq_some_iff] at hx
    symm
    rw [List.max?_eq_some_iff]
    exact ⟨(h x).1 hx.1, fun y hy => hx.2 y ((h y).2 hy)⟩

/-- **A span divided in two goes.** -/
theorem Frame.cut_two {f : Frame} {c : Cut} {s : Span} {ss : List Span} {k : Nat} {x : Span} (hs : s.Within f.n) (hst : c.Anywhere f.freq)
    (h : f.cut s c = .ok ss) (hk : 0 < k) (hx : ss[k]? = some x) :
    s.first < x.first ∧ x.first ≤ s.last ∧ ∃ ss1 ss2, f.cut { first := s.first, last := x.first - 1 } c = .ok ss1 ∧
      f.cut { first := x.first, last := s.last } c = .ok ss2 ∧ ss1.map Span.core = (ss.take k).map Span.core ∧
      ss2.map Span.core = (ss.drop k).map Span.core := by
  have hsle := hs.2.1
  have hget : ∀ l r us, (withSkips l r us)[k]? = some x → ∃ y, us[k]? = some y ∧ y.first = x.first := by
    intro l r us h
    unfold withSkips at h
    rw [List.getElem?_mapIdx, Option.map_eq_some_iff] at h
    obtain ⟨z, hz, rfl⟩ := h
    exact ⟨z, hz, rfl⟩
  cases c with
  | marks ts =>
    cases h
    obtain ⟨h1, h2, h3, h4⟩ := Frame.divide_two hs hk hx
    exact ⟨h1, h2, _, _, rfl, rfl, by rw [h3], by rw [h4]⟩
  | marker m =>
    unfold Frame.cut at h
    simp only at h
    split at h
    · cases h
    · rename_i hc
      rw [Bool.not_eq_false] at hc
      split at h
      · rename_i hat
        simp only [Except.ok.injEq] at h
        subst h
        obtain ⟨y, y1, y2⟩ := hget _ _ _ hx
        obtain ⟨h1, h2, h3, h4⟩ := Frame.divide_two hs hk y1
        rw [y2] at h1 h2 h3 h4
        obtain ⟨t, t1, t2⟩ := Frame.divide_marked hk y1
        rw [y2] at t2
        have hx0 : f.unitStart s.first < f.unitStart x.first := Frame.unitStart_lt h1
        have hxe : f.unitEnd (x.first - 1) = f.unitStart x.first - 1 := by rw [Frame.unitEnd_eq, Int.sub_add_cancel]
        have hle : f.unitStart x.first ≤ f.unitEnd s.last := by
          have := Frame.unitStart_lt_iff (f := f) (i := x.first) (j := s.last + 1)
          rw [Frame.unitEnd_eq]; omega
        obtain ⟨j0, j1, rfl, j3⟩ := (Freq.mem_starts (by omega) _).1 t1
        obtain ⟨i, hi⟩ := Frame.period_unit hc s.first (f.unitEnd s.last) j0
        have hi' : m.each.base.startOf (m.each.base.ordOf (f.unitStart s.first) + m.each.mult * j0) = f.unitStart i := hi
        rw [hi', Frame.fallsIn_unit, decide_eq_true_eq] at t2
        subst t2
        have ho : m.each.base.ordOf (f.unitStart x.first) = m.each.base.ordOf (f.unitStart s.first) + m.each.mult * j0 := by
          rw [← hi', Base.ordOf_startOf]
        have hm := m.each.mult_pos
        refine ⟨h1, h2, ?_⟩
        unfold Frame.cut
        simp only
        rw [if_neg (by simp [hc]), if_pos hat, if_neg (by simp [hc]), if_pos hat]
        refine ⟨_, _, rfl, rfl, ?_, ?_⟩
        · rw [withSkips_take _ _ (f.unitsAfter (x.first - 1) ((m.each.periodsOver (f.unitStart s.first) (f.unitEnd (x.first - 1))).unitStart
              (m.each.periodsOver (f.unitStart s.first) (f.unitEnd (x.first - 1))).n - 1)), ← h3]
          congr 2
          apply Frame.divide_congr f (by simp only; omega)
          intro t g1 g2
          simp only at g1 g2
          rw [Freq.mem_starts (by omega), Freq.mem_starts (by omega)]
          constructor
          · rintro ⟨j, k1, k2, k3⟩; exact ⟨j, k1, k2, by omega⟩
          · rintro ⟨j, k1, k2, k3⟩; exact ⟨j, k1, k2, by omega⟩
        · have hz : f.unitsBefore x.first ((m.each.periodsOver (f.unitStart x.first) (f.unitEnd s.last)).unitStart 0) = 0 := by
            rw [show (m.each.periodsOver (f.unitStart x.first) (f.unitEnd s.last)).unitStart 0 = f.unitStart x.first by
              show m.each.base.startOf (m.each.base.ordOf (f.unitStart x.first) + m.each.mult * 0) = _
              rw [Int.mul_zero, Int.add_zero, ho, hi'], Frame.unitsBefore_self]
          rw [hz, withSkips_drop _ _ (f.unitsAfter s.last ((m.each.periodsOver (f.unitStart x.first) (f.unitEnd s.last)).unitStart
              (m.each.periodsOver (f.unitStart x.first) (f.unitEnd s.last)).n - 1)) _ hk, ← h4]
          congr 2
          apply Frame.divide_congr f (by simp only; omega)
          intro t g1 g2
          simp only at g1 g2
          rw [Freq.mem_starts (by omega), Freq.mem_starts (by omega), ho]
          constructor
          · rintro ⟨j, k1, k2, k3⟩
            exact ⟨j0 + j, by omega, by rw [k2, Int.mul_add, Int.add_assoc], k3⟩
          · rintro ⟨j, k1, k2, k3⟩
            refine ⟨j - j0, ?_, by rw [k2, Int.mul_sub]; congr 1; omega, k3⟩
            rw [k2, ← hi', Base.startOf_lt_iff] at g1
            have : m.each.mult * j0 < m.each.mult * j := by omega
            have := Int.lt_of_mul_lt_mul_left this (by omega)
            omega
      · rename_i hat
        have hr : m.Regular f.freq := by
          rcases hst with h' | h'
          · rw [h'] at hat; simp at hat
          · exact h'
        have hd := getFreqDelta_pos m.each
        have hfm : f.freq.mult = 1 := (checkGroupby_unit hc hr.mult).1
        have hw : f.unitStart s.first ≤ f.unitEnd s.last := by
          have := Frame.unitStart_lt_iff (f := f) (i := s.first) (j := s.last + 1)
          rw [Frame.unitEnd_eq]; omega
        obtain ⟨pts, p1, p2⟩ := hr.deliver (a := f.unitStart s.first - getFreqDelta m.each) (b := f.unitEnd s.last + getFreqDelta m.each) (by omega)
        rw [p1] at h
        cases hpts : pts with
        | nil =>
          rw [hpts] at h
          simp only [Except.ok.injEq] at h
          subst h
          obtain ⟨k', rfl⟩ : ∃ k', k = k' + 1 := ⟨k - 1, by omega⟩
          simp at hx
        | cons q qs =>
          rw [hpts] at h
          simp only [Except.ok.injEq] at h
          rw [← hpts] at h
          subst h
          obtain ⟨y, y1, y2⟩ := hget _ _ _ hx
          obtain ⟨h1, h2, h3, h4⟩ := Frame.divide_two hs hk y1
          rw [y2] at h1 h2 h3 h4
          obtain ⟨t, t1, t2⟩ := Frame.divide_marked hk y1
          rw [y2] at t2
          have hx0 : f.unitStart s.first < f.unitStart x.first := Frame.unitStart_lt h1
          have hxe : f.unitEnd (x.first - 1) = f.unitStart x.first - 1 := by rw [Frame.unitEnd_eq, Int.sub_add_cancel]
          have hle : f.unitStart x.first ≤ f.unitEnd s.last := by
            have := Frame.unitStart_lt_iff (f := f) (i := x.first) (j := s.last + 1)
            rw [Frame.unitEnd_eq]; omega
          have hmk := (p2 t).1 t1
          have hi := hr.mark_unit hfm hmk.1
          generalize f.freq.base.ordOf t - f.o0 = i at hi
          subst hi
          rw [Frame.fallsIn_unit, decide_eq_true_eq] at t2
          subst t2
          have mono := fun {u v : Time} (h : u ≤ v) => m.each.base.ordOf_mono h
          obtain ⟨pts1, q1, q2⟩ := hr.deliver (a := f.unitStart s.first - getFreqDelta m.each)
            (b := f.unitEnd (x.first - 1) + getFreqDelta m.each) (by omega)
          obtain ⟨pts2, r1, r2⟩ := hr.deliver (a := f.unitStart x.first - getFreqDelta m.each)
            (b := f.unitEnd s.last + getFreqDelta m.each) (by omega)
          have in1 : f.unitStart x.first ∈ pts1 := (q2 _).2 ⟨hmk.1, hmk.2.1, mono (by omega)⟩
          have in2 : f.unitStart x.first ∈ pts2 := (r2 _).2 ⟨hmk.1, mono (by omega), hmk.2.2⟩
          refine ⟨h1, h2, ?_⟩
          unfold Frame.cut
          simp only
          rw [if_neg (by simp [hc]), if_neg hat, if_neg (by simp [hc]), if_neg hat, q1, r1]
          cases e1 : pts1 with
          | nil => rw [e1] at in1; cases in1
          | cons u1 us1 =>
            cases e2 : pts2 with
            | nil => rw [e2] at in2; cases in2
            | cons u2 us2 =>
              simp only
              rw [← e1, ← e2]
              refine ⟨_, _, rfl, rfl, ?_, ?_⟩
              · rw [withSkips_take _ _ (match (pts1.filter (fun t => decide (f.unitEnd (x.first - 1) ≤ t))).min? with
                  | none => -1
                  | some t => f.unitsAfter (x.first - 1) (max (f.unitEnd (x.first - 1)) (t - nsSec))), ← h3]
                rw [max?_congr (xs := pts1.filter (fun t => decide (t ≤ f.unitStart s.first))) (ys := pts.filter (fun t => decide (t ≤ f.unitStart s.first)))
                  (by
                    intro t
                    rw [List.mem_filter, List.mem_filter, q2, p2, decide_eq_true_eq]
                    constructor
                    · rintro ⟨⟨k1, k2, k3⟩, k4⟩; exact ⟨⟨k1, k2, mono (by omega)⟩, k4⟩
                    · rintro ⟨⟨k1, k2, k3⟩, k4⟩; exact ⟨⟨k1, k2, mono (by omega)⟩, k4⟩)]
                congr 2
                apply Frame.divide_congr f (by simp only; omega)
                intro t g1 g2
                simp only at g1 g2
                rw [q2, p2]
                constructor
                · rintro ⟨k1, k2, k3⟩; exact ⟨k1, k2, mono (by omega)⟩
                · rintro ⟨k1, k2, k3⟩; exact ⟨k1, k2, mono (by omega)⟩
              · rw [max?_filter in2 (Int.le_refl _) (fun y _ h => h)]
                simp only
                rw [Frame.unitsBefore_self, withSkips_drop _ _ (match (pts2.filter (fun t => decide (f.unitEnd s.last ≤ t))).min? with
                  | none => -1
                  | some t => f.unitsAfter s.last (max (f.unitEnd s.last) (t - nsSec))) _ hk, ← h4]
                congr 2
                apply Frame.divide_congr f (by simp only; omega)
                intro t g1 g2
                simp only at g1 g2
                rw [r2, p2]
                constructor
                · rintro ⟨k1, k2, k3⟩; exact ⟨k1, mono (by omega), k3⟩
                · rintro ⟨k1, k2, k3⟩; exact ⟨k1, mono (by omega), k3⟩

theorem Layout.read_core (f : Frame) (dl : L) (l : Layout L) (s : Span) (m : Memory L) : Layout.read f dl l s.core m = Layout.read f dl l s m := by
  cases l with
  | label v => unfold Layout.read; rfl
  | pattern p => cases p <;> (unfold Layout.read; rfl)
  | organizer c es => unfold Layout.read; rw [Frame.cut_bounds f (s := s.core) (s' := s) rfl rfl]; rfl
  | organizerRP c id => unfold Layout.read; rw [Frame.cut_bounds f (s := s.core) (s' := s) rfl rfl]; rfl

theorem readInTurns_core (f : Frame) (dl : L) (elems : List (Layout L)) : ∀ (ss : List Span) (n : Nat) (m : Memory L),
    readInTurns (elems.map (Layout.read f dl)) n (ss.map Span.core) m = readInTurns (elems.map (Layout.read f dl)) n ss m
  | [], n, m => rfl
  | s :: ss, n, m => by
    rw [List.map_cons]
    unfold readInTurns
    rw [cyclic_map]
    cases cyclic elems n with
    | none => rfl
    | some e =>
      simp only [Option.map_some, Layout.read_core]
      cases Layout.read f dl e s m with
      | error er => rfl
      | ok r =>
        simp only
        rw [readInTurns_core f dl elems ss (n + 1) r.2]

/-- One reading after the other. -/
def thenRead (r : Except Err (List (Piece L) × Memory L)) (g : Memory L → Except Err (List (Piece L) × Memory L)) :
    Except Err (List (Piece L) × Memory L) :=
  match r with
  | .error e => .error e
  | .ok (ps, m1) => match g m1 with
    | .error e => .error e
    | .ok (qs, m2) => .ok (ps ++ qs, m2)

theorem readInTurns_append {rs : List (Reader L)} (hne : rs ≠ []) : ∀ (ss ts : List Span) (n : Nat) (m : Memory L),
    readInTurns rs n (ss ++ ts) m = thenRead (readInTurns rs n ss m) (readInTurns rs (n + ss.length) ts)
  | [], ts, n, m => by
    show readInTurns rs n ts m = _
    unfold thenRead
    simp only [readInTurns, List.length_nil, Nat.add_zero]
    cases readInTurns rs n ts m with
    | error e => rfl
    | ok r => rfl
  | s :: ss, ts, n, m => by
    obtain ⟨r, hr⟩ := cyclic_some hne n
    rw [List.cons_append]
    unfold readInTurns
    rw [hr]
    simp only
    cases r s m with
    | error e => rfl
    | ok q =>
      obtain ⟨ps, m1⟩ := q
      simp only
      rw [readInTurns_append hne ss ts (n + 1) m1, List.length_cons, show n + 1 + ss.length = n + (ss.length + 1) by omega]
      unfold thenRead
      cases readInTurns rs (n + 1) ss m1 with
      | error e => rfl
      | ok q =>
        simp only
        cases readInTurns rs (n + (ss.length + 1)) ts q.2 with
        | error e => rfl
        | ok q' => simp

theorem readInTurns_turn {rs : List (Reader L)} {k : Nat} (hk : rs.length ∣ k) : ∀ (ss : List Span) (n : Nat) (m : Memory L),
    readInTurns rs (n + k) ss m = readInTurns rs n ss m
  | [], n, m => rfl
  | s :: ss, n, m => by
    unfold readInTurns
    have : cyclic rs (n + k) = cyclic rs n := by
      unfold cyclic
      obtain ⟨q, rfl⟩ := hk
      rw [Nat.add_mul_mod_self_left]
    rw [this]
    cases cyclic rs n with
    | none => rfl
    | some r =>
      simp only
      cases r s m with
      | error e => rfl
      | ok q =>
        simp only
        rw [show n + k + 1 = n + 1 + k by omega, readInTurns_turn hk ss (n + 1) q.2]

theorem spanPieces_core (dl : L) (xs : List L) (p : Nat) (ss : List Span) : spanPieces dl xs p (ss.map Span.core) = spanPieces dl xs p ss := by
  unfold spanPieces
  rw [List.zipIdx_map, List.map_map]
  rfl

theorem spanPieces_append (dl : L) (xs : List L) (p : Nat) (ss ts : List Span) :
    spanPieces dl xs p (ss ++ ts) = spanPieces dl xs p ss ++ spanPieces dl xs (p + ss.length) ts := by
  unfold spanPieces
  rw [List.zipIdx_append, List.map_append, List.zipIdx_eq_map_add (i := 0 + ss.length), List.map_map]
  congr 1
  apply List.map_congr_left
  intro si _
  simp only [Function.comp]
  congr 3
  omega

theorem unitPieces_two (dl : L) {s : Span} {i : Int} (h1 : s.first ≤ i) (h2 : i ≤ s.last) :
    unitPieces dl ([] : List L) 0 s = unitPieces dl [] 0 { first := s.first, last := i - 1 } ++ unitPieces dl [] 0 { first := i, last := s.last } := by
  unfold unitPieces
  simp only
  obtain ⟨a, ha⟩ : ∃ a : Nat, i = s.first + a := ⟨(i - s.first).toNat, by omega⟩
  obtain ⟨b, hb⟩ : ∃ b : Nat, s.last + 1 = i + b := ⟨(s.last + 1 - i).toNat, by omega⟩
  rw [show (s.last + 1 - s.first).toNat = a + b by omega, show (i - 1 + 1 - s.first).toNat = a by omega,
    show (s.last + 1 - i).toNat = b by omega, List.range_add, List.map_append, List.map_map]
  congr 1
  apply List.map_congr_left
  intro j _
  simp only [Function.comp, cyclic, List.getElem?_nil, Option.getD_none]
  congr 1 <;> omega

theorem Memory.draw_draw (m : Memory L) (id a b : Nat) : (m.draw id a).draw id b = m.draw id (a + b) := by
  funext j
  unfold Memory.draw
  by_cases h : j = id
  · simp [h, Nat.add_assoc]
  · simp [h]

/-- **A span read in two goes.** -/
theorem Layout.read_two {f : Frame} (dl : L) {l : Layout L} {c : Cut} {k : Nat} {s x : Span} {ss : List Span} (hl : l.TurnsAt k c)
    (hs : s.Within f.n) (hst : c.Anywhere f.freq) (h : f.cut s c = .ok ss) (hk : 0 < k) (hx : ss[k]? = some x) (m : Memory L) :
    Layout.read f dl l s m = thenRead (Layout.read f dl l { first := s.first, last := x.first - 1 } m)
      (Layout.read f dl l { first := x.first, last := s.last }) := by
  obtain ⟨hlt, hle, ss1, ss2, h1, h2, h3, h4⟩ := Frame.cut_two hs hst h hk hx
  have hlen : ss1.length = k := by
    have := congrArg List.length h3
    rw [List.length_map, List.length_map, List.length_take] at this
    have : k < ss.length := by
      rcases Nat.lt_or_ge k ss.length with g | g
      · exact g
      · rw [List.getElem?_eq_none g] at hx; cases hx
    omega
  have hsp : ss.map Span.core = (ss1 ++ ss2).map Span.core := by
    rw [List.map_append, h3, h4, ← List.map_append, List.take_append_drop]
  cases l with
  | label v => exact hl.elim
  | pattern p => exact hl.elim
  | organizer c' es =>
    obtain ⟨rfl, hdiv⟩ := hl
    have hne : es ≠ [] := by
      rintro rfl
      rw [List.length_nil, Nat.zero_dvd] at hdiv
      omega
    unfold Layout.read
    have e1 : es.isEmpty = false := by simpa using hne
    simp only [h, h1, h2, e1, Bool.false_eq_true, if_false, Layout.readAll_eq]
    rw [← readInTurns_core, hsp, readInTurns_core, readInTurns_append (by simpa using hne), hlen]
    congr 1
    funext m1
    exact readInTurns_turn (by rw [List.length_map]; exact hdiv) ss2 0 m1
  | organizerRP c' id =>
    cases (show c' = c from hl)
    unfold Layout.read
    simp only [h, h1, h2]
    unfold thenRead
    by_cases he : (m id).1.isEmpty = true
    · simp only [he, if_true]
      rw [unitPieces_two dl (by omega) hle]
    · simp only [he, if_false]
      have e1 : (m.draw id ss1.length id) = ((m id).1, (m id).2 + ss1.length) := by simp [Memory.draw]
      simp only [Bool.false_eq_true, if_false, e1, he]
      rw [← spanPieces_core, hsp, spanPieces_core, spanPieces_append, Memory.draw_draw]
      have : ss.length = ss1.length + ss2.length := by
        have := congrArg List.length hsp
        simpa using this
      rw [this]

theorem amendPieces_append (f : Frame) (items : List (Time × L)) (ps qs : List (Piece L)) :
    amendPieces f items (ps ++ qs) = match amendPieces f items ps with
      | .error e => .error e
      | .ok ps' => match amendPieces f items qs with
        | .error e => .error e
        | .ok qs' => .ok (ps' ++ qs') := by
  unfold amendPieces
  rw [List.any_append]
  by_cases h1 : (ps.any (fun p => decide (2 ≤ (p.hits f items).length))) = true
  · simp [h1]
  · by_cases h2 : (qs.any (fun p => decide (2 ≤ (p.hits f items).length))) = true
    · simp [h1, h2]
    · simp [h1, h2]

theorem amendPieces_part (f : Frame) (x : Span) (items : List (Time × L)) (ps : List (Piece L)) :
    amendPieces f items (ps.map (Piece.moved x.first)) = (amendPieces (f.part x) items ps).map (List.map (Piece.moved x.first)) := by
  have hh : ∀ p : Piece L, (p.moved x.first).hits f items = p.hits (f.part x) items := by
    intro p
    unfold Piece.hits
    rw [Frame.part_unitStart, Frame.part_unitEnd]
    rfl
  unfold amendPieces
  rw [List.any_map, List.map_map]
  simp only [Function.comp_def, hh]
  split
  · rfl
  · simp only [Except.map, List.map_map]
    rfl

theorem amendPieces_error {f : Frame} {items : List (Time × L)} {ps : List (Piece L)} {e : Err} (h : amendPieces f items ps = .error e) :
    e = .keyError := by
  unfold amendPieces at h
  split at h
  · cases h; rfl
  · cases h

end TB
