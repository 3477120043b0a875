import Verif.Props.Roll
/-! Property C69: counting inside of an interval agrees with rolling along the timeboard. -/
namespace TB
open TB.Ex
variable {L : Type}

theorem mem_take_sorted {l : List Int} (hs : l.Pairwise (· < ·)) {n : Nat} (hn : n < l.length) (j : Int) :
    j ∈ l.take n ↔ j ∈ l ∧ j < l[n] := by
  rw [List.mem_take_iff_getElem]
  constructor
  · rintro ⟨i, hi, rfl⟩
    have hi' : i < l.length := by omega
    exact ⟨List.getElem_mem hi', (pairwise_lt_getElem_iff hs hi' hn).2 (by omega)⟩
  · rintro ⟨hj, hlt⟩
    obtain ⟨i, hi, rfl⟩ := List.getElem_of_mem hj
    exact ⟨i, by have := (pairwise_lt_getElem_iff hs hi hn).1 hlt; omega, rfl⟩

/-- Two ways to count steps to the same target agree. -/
theorem Timeboard.StepsTo.unique {tb : Timeboard L} {s : Schedule L} {d : Duty} {k0 t n m : Int} (h : tb.StepsTo s d k0 t n) (h' : tb.StepsTo s d k0 t m) :
    n = m := by
  obtain ⟨_, b, p, q⟩ := h
  obtain ⟨_, b', p', q'⟩ := h'
  rcases q with ⟨q1, q2, q3⟩ | ⟨q1, q2, q3⟩ <;> rcases q' with ⟨r1, r2, r3⟩ | ⟨r1, r2, r3⟩
  · have : b = b' := eq_of_pairwise_lt p p' (fun j => by rw [q3, r3])
    rw [q2, r2, this]
  · have e : b = [] := List.eq_nil_iff_forall_not_mem.2 (fun j hj => by have := (q3 j).1 hj; omega)
    have e' : b' = [] := List.eq_nil_iff_forall_not_mem.2 (fun j hj => by have := (r3 j).1 hj; omega)
    rw [q2, r2, e, e']; rfl
  · have e : b = [] := List.eq_nil_iff_forall_not_mem.2 (fun j hj => by have := (q3 j).1 hj; omega)
    have e' : b' = [] := List.eq_nil_iff_forall_not_mem.2 (fun j hj => by have := (r3 j).1 hj; omega)
    rw [q2, r2, e, e']; rfl
  · have : b = b' := eq_of_pairwise_lt p p' (fun j => by rw [q3, r3])
    rw [q2, r2, this]

theorem Timeboard.ZeroForward.unique {tb : Timeboard L} {s : Schedule L} {d : Duty} {k x y : Int} (h : tb.ZeroForward s d k x) (h' : tb.ZeroForward s d k y) :
    x = y := by
  obtain ⟨a1, a2, a3⟩ := h
  obtain ⟨b1, b2, b3⟩ := h'
  rcases Int.lt_trichotomy x y with c | c | c
  · exact absurd a2 (b3 x a1 c)
  · exact c
  · exact absurd b2 (a3 y b1 c)

theorem Timeboard.ZeroBack.unique {tb : Timeboard L} {s : Schedule L} {d : Duty} {k x y : Int} (h : tb.ZeroBack s d k x) (h' : tb.ZeroBack s d k y) :
    x = y := by
  obtain ⟨a1, a2, a3⟩ := h
  obtain ⟨b1, b2, b3⟩ := h'
  rcases Int.lt_trichotomy x y with c | c | c
  · exact absurd b2 (a3 y c b1)
  · exact c
  · exact absurd a2 (b3 x c a1)

/-- **C69.** Let the interval consist of the workshifts `a..b`, let `first` be the workshift `a` and `last` the workshift `b`.
For a non-negative `n`, `nth(n, duty)` returns a workshift exactly when `first.rollforward(n, duty)` returns one which is
not after `b`, and then it is the same; `nth(-1-n, duty)` returns a workshift exactly when `last.rollback(n, duty)` returns one
which is not before `a`, and then it is the same. -/
theorem C69_nth_is_rolling {tb : Timeboard L} (h : tb.Reachable) {a b : Int} {s0 s1 : Option (Schedule L)} {v : Interval L}
    (hv : Interval.new tb (a, b) s0 = .ok v) (h0 : tb.OwnsOpt s0) (h1 : tb.OwnsOpt s1) {d : Duty} (hd : d = .on ∨ d = .off ∨ d = .any)
    {wa wb : Workshift L} (ha : Workshift.new tb a s0 = .ok wa) (hb : Workshift.new tb b s0 = .ok wb) (n : Nat) (w : Workshift L) :
    (v.nth tb n d s1 = .ok w ↔ (wa.rollforward tb n d s1 = .ok w ∧ w.loc ≤ b)) ∧
    (v.nth tb (-1 - n) d s1 = .ok w ↔ (wb.rollback tb n d s1 = .ok w ∧ a ≤ w.loc)) := by
  obtain ⟨g1, g2, g3, e⟩ := Interval.new_ok_iff.1 hv
  have esch : v.schedule = wa.schedule ∧ v.schedule = wb.schedule := by
    rw [Workshift.new_schedule ha, Workshift.new_schedule hb, e]; exact ⟨rfl, rfl⟩
  obtain ⟨ws, i1, ⟨i2, i3, i4⟩, _⟩ := (C17_iteration h hv h0 h1).1 d hd
  obtain ⟨ws', j1, j2, j3, j4, _⟩ := C18_nth_first_last h hv h0 h1 d hd
  rw [i1] at j1; cases j1
  have hlm : ∀ k, k ∈ ws.map (fun w => w.loc) ↔ (a ≤ k ∧ k ≤ b ∧ tb.DutyAt (s1.getD v.schedule) d k) := by
    intro k; rw [← i4, List.mem_map]
  have hlen : (ws.map (fun w => w.loc)).length = ws.length := List.length_map _
  have hget : ∀ (i : Nat) (hi : i < ws.length), (ws.map (fun w => w.loc))[i]'(by rw [hlen]; exact hi) = ws[i].loc := by
    intro i hi; rw [List.getElem_map]
  generalize hl : ws.map (fun w => w.loc) = l at *
  have hab : 0 ≤ a ∧ a < tb.timeline.len ∧ 0 ≤ b ∧ b < tb.timeline.len := by omega
  have hrf := C19_rollforward h (k := a) ⟨hab.1, hab.2.1⟩ ha h0 h1 n hd
  have hrb := C20_rollback h (k := b) ⟨hab.2.2.1, hab.2.2.2⟩ hb h0 h1 n hd
  rw [← esch.1] at hrf
  rw [← esch.2] at hrb
  have pos : ∀ k, k ∈ l → ∃ m : Nat, ∃ hm : m < l.length, l[m] = k := fun k hk => by
    obtain ⟨m, hm, e⟩ := List.getElem_of_mem hk; exact ⟨m, hm, e⟩
  -- the zero step workshifts and the steps inside of the interval
  have zf : ∀ (hp : 0 < l.length), tb.ZeroForward (s1.getD v.schedule) d a l[0] := by
    intro hp
    obtain ⟨m1, m2, m3⟩ := (hlm l[0]).1 (List.getElem_mem hp)
    refine ⟨m1, m3, ?_⟩
    intro j hj1 hj2 hj3
    obtain ⟨m, hm, e⟩ := pos j ((hlm j).2 ⟨hj1, by omega, hj3⟩)
    have := (pairwise_lt_getElem_iff i2 hm hp).1 (by rw [e]; exact hj2)
    omega
  have zb : ∀ (hp : 0 < l.length), tb.ZeroBack (s1.getD v.schedule) d b (l[l.length - 1]'(by omega)) := by
    intro hp
    obtain ⟨m1, m2, m3⟩ := (hlm (l[l.length - 1]'(by omega))).1 (List.getElem_mem _)
    refine ⟨m2, m3, ?_⟩
    intro j hj1 hj2 hj3
    obtain ⟨m, hm, e⟩ := pos j ((hlm j).2 ⟨by omega, by omega, hj3⟩)
    have := (pairwise_lt_getElem_iff i2 (show l.length - 1 < l.length by omega) hm).1 (by rw [e]; exact hj1)
    omega
  have sf : ∀ (i m : Nat) (him : i ≤ m) (hm : m < l.length), tb.StepsTo (s1.getD v.schedule) d (l[i]'(by omega)) l[m] (m - i : Int) ∧
      tb.StepsTo (s1.getD v.schedule) d l[m] (l[i]'(by omega)) (-(m - i : Int)) := by
    intro i m him hm
    have hi : i < l.length := by omega
    have hsub : ((l.take m).drop i).Pairwise (· < ·) := (i2.sublist (List.take_sublist _ _)).sublist (List.drop_sublist _ _)
    have hlen2 : ((l.take m).drop i).length = m - i := by rw [List.length_drop, List.length_take]; omega
    have hmem : ∀ j, j ∈ (l.take m).drop i ↔ (l[i] ≤ j ∧ j < l[m] ∧ tb.DutyAt (s1.getD v.schedule) d j) := by
      intro j
      rw [List.mem_drop_iff_getElem]
      constructor
      · rintro ⟨x, hx, rfl⟩
        rw [List.length_take] at hx
        rw [List.getElem_take]
        have hix : i + x < l.length := by omega
        refine ⟨?_, (pairwise_lt_getElem_iff i2 hix hm).2 (by omega), ((hlm _).1 (List.getElem_mem hix)).2.2⟩
        rcases Nat.eq_zero_or_pos x with hx0 | hx0
        · subst hx0; exact Int.le_refl _
        · exact Int.le_of_lt ((pairwise_lt_getElem_iff i2 hi hix).2 (by omega))
      · rintro ⟨c1, c2, c3⟩
        have r1 := (hlm l[i]).1 (List.getElem_mem hi)
        have r2 := (hlm l[m]).1 (List.getElem_mem hm)
        obtain ⟨x, hx, e⟩ := pos j ((hlm j).2 ⟨by omega, by omega, c3⟩)
        have d1 : x < m := (pairwise_lt_getElem_iff i2 hx hm).1 (by rw [e]; exact c2)
        have d2 : i ≤ x := by
          rcases Nat.lt_or_ge x i with hc | hc
          · have := (pairwise_lt_getElem_iff i2 hx hi).2 hc
            omega
          · exact hc
        refine ⟨x - i, by rw [List.length_take]; omega, ?_⟩
        rw [List.getElem_take]
        have : i + (x - i) = x := by omega
        simp only [this]; exact e
    have hle : l[i] ≤ l[m] := by
      rcases Nat.lt_or_ge i m with hc | hc
      · exact Int.le_of_lt ((pairwise_lt_getElem_iff i2 hi hm).2 hc)
      · have : i = m := by omega
        subst this; exact Int.le_refl _
    exact ⟨⟨((hlm _).1 (List.getElem_mem hm)).2.2, _, hsub, .inl ⟨hle, by rw [hlen2]; omega, hmem⟩⟩,
      ⟨((hlm _).1 (List.getElem_mem hi)).2.2, _, hsub, .inr ⟨hle, by rw [hlen2]; omega, hmem⟩⟩⟩
  constructor
  · constructor
    · intro hw
      have hn : (n : Int) < ws.length := by
        rcases Int.lt_or_le (n : Int) ws.length with hc | hc
        · exact hc
        · rw [j4 _ (.inl hc)] at hw; cases hw
      obtain ⟨w', q1, q2⟩ := j2 n (by omega) hn
      rw [q2] at hw; cases hw
      have hn' : n < l.length := by omega
      have ew : w.loc = l[n] := by
        rw [hget n (by omega)]
        simp only [Int.toNat_natCast] at q1
        rw [List.getElem?_eq_getElem (by omega)] at q1
        simp only [Option.some.injEq] at q1
        rw [q1]
      refine ⟨(hrf.1 w).2 ⟨l[0]'(by omega), l[n], zf (by omega), by simpa using (sf 0 n (by omega) hn').1, ?_⟩, ?_⟩
      · rw [← ew]
        exact i3 w (List.mem_of_getElem? q1)
      · rw [ew]; exact ((hlm _).1 (List.getElem_mem hn')).2.1
    · rintro ⟨hw, hle⟩
      obtain ⟨k0, t, q1, q2, q3⟩ := (hrf.1 w).1 hw
      have ht := Workshift.new_loc q3
      have hk : k0 ≤ t := by
        obtain ⟨_, bt, _, hc | hc⟩ := q2
        · exact hc.1
        · have : bt = [] := by apply List.eq_nil_of_length_eq_zero; omega
          subst this
          rcases Int.lt_or_le t k0 with hlt | hlt
          · exact absurd ((hc.2.2 t).2 ⟨Int.le_refl _, hlt, by assumption⟩) (by simp)
          · exact hlt
      have hak := q1.1
      obtain ⟨m, hm, em⟩ := pos t ((hlm t).2 ⟨by omega, by omega, q2.1⟩)
      have e0 := q1.unique (zf (by omega))
      rw [← em] at q2 q3
      rw [e0] at q2
      have := q2.unique (sf 0 m (by omega) hm).1
      have hnm : n = m := by omega
      subst hnm
      obtain ⟨w', r1, r2⟩ := j2 n (by omega) (by omega)
      rw [r2]
      simp only [Int.toNat_natCast] at r1
      have r3 := i3 w' (List.mem_of_getElem? r1)
      have : w'.loc = l[n] := by
        rw [hget n (by omega)]
        rw [List.getElem?_eq_getElem (by omega)] at r1
        simp only [Option.some.injEq] at r1
        rw [r1]
      rw [this, q3] at r3
      exact r3.symm
  · constructor
    · intro hw
      have hn : (n : Int) < ws.length := by
        rcases Int.lt_or_le (n : Int) ws.length with hc | hc
        · exact hc
        · rw [j4 _ (.inr (by omega))] at hw; cases hw
      obtain ⟨w', q1, q2⟩ := j3 (-1 - n) (by omega) (by omega)
      rw [q2] at hw; cases hw
      have hidx : (-1 - (n : Int) + ws.length).toNat = l.length - 1 - n := by omega
      rw [hidx] at q1
      have hn' : l.length - 1 - n < l.length := by omega
      have ew : w.loc = l[l.length - 1 - n] := by
        rw [hget _ (by omega)]
        rw [List.getElem?_eq_getElem (by omega)] at q1
        simp only [Option.some.injEq] at q1
        rw [q1]
      refine ⟨(hrb.1 w).2 ⟨l[l.length - 1]'(by omega), l[l.length - 1 - n], zb (by omega), ?_, ?_⟩, ?_⟩
      · have := (sf (l.length - 1 - n) (l.length - 1) (by omega) (by omega)).2
        have e2 : (-(((l.length - 1 : Nat) : Int) - ((l.length - 1 - n : Nat) : Int))) = -(n : Int) := by omega
        rw [e2] at this
        exact this
      · rw [← ew]
        exact i3 w (List.mem_of_getElem? q1)
      · rw [ew]; exact ((hlm _).1 (List.getElem_mem hn')).1
    · rintro ⟨hw, hle⟩
      obtain ⟨k0, t, q1, q2, q3⟩ := (hrb.1 w).1 hw
      have ht := Workshift.new_loc q3
      have hk : t ≤ k0 := by
        obtain ⟨_, bt, _, hc | hc⟩ := q2
        · have : bt = [] := by apply List.eq_nil_of_length_eq_zero; omega
          subst this
          rcases Int.lt_or_le k0 t with hlt | hlt
          · exact absurd ((hc.2.2 k0).2 ⟨Int.le_refl _, hlt, q1.2.1⟩) (by simp)
          · exact hlt
        · exact hc.1
      have hak := q1.1
      obtain ⟨m, hm, em⟩ := pos t ((hlm t).2 ⟨by omega, by omega, q2.1⟩)
      have e0 := q1.unique (zb (by omega))
      rw [← em] at q2 q3
      rw [e0] at q2
      have := q2.unique (sf m (l.length - 1) (by omega) (by omega)).2
      have hnm : m = l.length - 1 - n := by omega
      obtain ⟨w', r1, r2⟩ := j3 (-1 - n) (by omega) (by omega)
      rw [r2]
      have hidx : (-1 - (n : Int) + ws.length).toNat = m := by omega
      rw [hidx] at r1
      have r3 := i3 w' (List.mem_of_getElem? r1)
      have : w'.loc = l[m] := by
        rw [hget m (by omega)]
        rw [List.getElem?_eq_getElem (by omega)] at r1
        simp only [Option.some.injEq] at r1
        rw [r1]
      rw [this, q3] at r3
      exact r3.symm

/-- On the interval 0..9 of the example: the second workshift on duty, and the third one from the end. -/
example : (do let v ← Interval.new week (0, 9); let w ← v.nth week 1; return w.loc) = .ok 3 ∧
    (do let w ← Workshift.new week 0; let w ← w.rollforward week 1; return w.loc) = .ok 3 ∧
    (do let v ← Interval.new week (0, 9); let w ← v.nth week (-3) .off; return w.loc) = .ok 0 ∧
    (do let w ← Workshift.new week 9; let w ← w.rollback week 2 .off; return w.loc) = .ok 0 ∧
    (do let v ← Interval.new week (0, 9); let w ← v.nth week 8; return w.loc) = .error .outOfBounds ∧
    (do let w ← Workshift.new week 0; let w ← w.rollforward week 8; return w.loc) = .ok 11 := by decide +kernel

end TB
