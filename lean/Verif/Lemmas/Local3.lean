import Verif.Lemmas.Local2
/-! What is asked of intervals and workshifts in a run. -/
namespace TB
open Reference
variable {L : Type} {tb tb' : Timeboard L} {xs xs' R : List (Shift L)} {a a' : Nat} {s e : Time}

/-- The interval in the run. -/
theorem Run.interval (hr : Run xs R a s e) (hv : tb.Valid) (hx : tb.ListedAs xs) {v : Interval L} (hf : v.Fine tb) {t u : Time} (hs : v.Spans tb t u)
    (h1 : s ≤ t) (h2 : u ≤ e) : v.Proper tb ∧ t ≤ u ∧ ∃ p q : Int, 0 ≤ p ∧ p ≤ q ∧ q < R.length ∧ v.lo = p + a ∧ v.hi = q + a ∧ Reference.getWorkshift R t = .ok p ∧
      Reference.getWorkshift R u = .ok q ∧ v.numbers = shiftBy a (intRange p (q + 1)) ∧
      Reference.getInt R Shift.start p = t ∧ Reference.getInt R Shift.stop q = u := by
  have wf := hv.wf
  obtain ⟨hst, hen⟩ := hs
  have hnv : v.isVoid = false := by
    unfold Interval.startTime at hst
    cases h : v.isVoid with
    | false => rfl
    | true => rw [h] at hst; cases hst
  have hp : v.Proper tb := by
    rcases hf.shape with hp | hh
    · exact hp
    · rw [hh.void] at hnv; cases hnv
  have l0 := hp.lo_nonneg
  have l1 := hp.lo_le_hi
  have l2 := hp.hi_lt
  obtain ⟨w, b1, b2, _, _, b5, _⟩ := Workshift.exists_of_range hv none (k := v.lo) l0 (by omega)
  obtain ⟨w2, c1, c2, _, _, _, c6, _⟩ := Workshift.exists_of_range hv none (k := v.hi) (by omega) l2
  unfold Workshift.startTime at b5
  unfold Workshift.endTime at c6
  unfold Interval.startTime at hst
  unfold Interval.endTime at hen
  rw [hnv] at hst hen
  rw [b2] at b5
  rw [c2] at c6
  rw [b5] at hst
  rw [c6] at hen
  simp only [Bool.false_eq_true, if_false, Except.map, Except.ok.injEq, Option.some.injEq] at hst hen
  have m1 := Frame.unitStart_lt_iff (f := tb.timeline.frame).2 (wf.bnd_lt_bnd (j := v.lo) (k := v.hi + 1) (by omega) (by omega) (by omega))
  have m2 := Frame.unitStart_lt_iff (f := tb.timeline.frame).2 (wf.bnd_lt_bnd (j := v.lo) (k := v.lo + 1) (by omega) (by omega) (by omega))
  have m3 := Frame.unitStart_lt_iff (f := tb.timeline.frame).2 (wf.bnd_lt_bnd (j := v.hi) (k := v.hi + 1) (by omega) (by omega) (by omega))
  have htu : t ≤ u := by omega
  have at1 : tb.At t v.lo := hv.at_iff.2 ((wf.wsPosition_ok_iff t v.lo).2 ⟨l0, by omega, by omega, by omega⟩)
  have at2 : tb.At u v.hi := hv.at_iff.2 ((wf.wsPosition_ok_iff u v.hi).2 ⟨by omega, by omega, by omega, by omega⟩)
  obtain ⟨p, p0, p1, g1, g2, _, _⟩ := hr.place (t := t) h1 (by omega)
  obtain ⟨q, q0, q1, k1, k2, _, _⟩ := hr.place (t := u) (by omega) h2
  have e1 : Reference.getWorkshift xs t = .ok v.lo := by unfold Reference.getWorkshift; rw [hx.head_at hv at1]; rfl
  have e2 : Reference.getWorkshift xs u = .ok v.hi := by unfold Reference.getWorkshift; rw [hx.head_at hv at2]; rfl
  rw [e1] at g2
  rw [e2] at k2
  have g2 := Except.ok.inj g2
  have k2 := Except.ok.inj k2
  refine ⟨hp, htu, p, q, p0, by omega, q1, g2, k2, g1, k1, ?_, ?_, ?_⟩
  · rw [hp.numbers_eq, g2, k2, ← intRange_shiftBy]; congr 1; omega
  · rw [← hr.getInt (g := Shift.start) p0 p1, ← g2]
    obtain ⟨x, a1, _, a3, _⟩ := hx.get hv l0 (by omega)
    unfold Reference.getInt
    rw [a1]
    show x.start = t
    omega
  · rw [← hr.getInt (g := Shift.stop) q0 q1, ← k2]
    obtain ⟨x, a1, _, _, a4, _⟩ := hx.get hv (k := v.hi) (by omega) l2
    unfold Reference.getInt
    rw [a1]
    show x.stop = u
    omega

/-- Intervals of both timeboards with the same start and end, in the run. -/
theorem Run.intervals (hr : Run xs R a s e) (hr' : Run xs' R a' s e) (hv : tb.Valid) (hv' : tb'.Valid) (hx : tb.ListedAs xs) (hx' : tb'.ListedAs xs')
    {v v' : Interval L} (hf : v.Fine tb) (hf' : v'.Fine tb') {t u : Time} (hs : v.Spans tb t u) (hs' : v'.Spans tb' t u) (h1 : s ≤ t) (h2 : u ≤ e) :
    ∃ ns : List Int, (∀ k ∈ ns, 0 ≤ k ∧ k < R.length) ∧ v.numbers = shiftBy a ns ∧ v'.numbers = shiftBy a' ns ∧
      (∀ i, ns.head? = some i → Reference.getInt R Shift.start i = t) ∧ (∀ j, ns.getLast? = some j → Reference.getInt R Shift.stop j = u) := by
  obtain ⟨hp, _, p, q, a1, a2, a3, a4, a5, a6, a7, a8, a9, a10⟩ := hr.interval hv hx hf hs h1 h2
  obtain ⟨hp', _, p', q', b1, b2, b3, b4, b5, b6, b7, b8, b9, b10⟩ := hr'.interval hv' hx' hf' hs' h1 h2
  rw [a6] at b6
  rw [a7] at b7
  cases b6
  cases b7
  refine ⟨intRange p (q + 1), ?_, a8, b8, ?_, ?_⟩
  · intro k hk; rw [mem_intRange] at hk; omega
  · intro i hi
    rw [intRange_cons (by omega)] at hi
    cases hi
    exact a9
  · intro j hj
    rw [← intRange_append (a := p) (b := q) (c := q + 1) (by omega) (by omega), intRange_cons (a := q) (by omega), intRange_empty (a := q + 1) (by omega),
      List.getLast?_concat] at hj
    cases hj
    exact a10

/-- What is seen of the workshifts with given numbers. -/
def seen (R : List (Shift L)) (k : Int) : Option (Shift L) := R[k.toNat]?

theorem Run.seen_shift (hr : Run xs R a s e) {k : Int} (h0 : 0 ≤ k) (h1 : k < R.length) : seen xs (k + a) = seen R k := hr.get h0 h1

theorem map_seen (hr : Run xs R a s e) {ns : List Int} (hn : ∀ k ∈ ns, 0 ≤ k ∧ k < R.length) : (shiftBy a ns).map (seen xs) = ns.map (seen R) := by
  unfold shiftBy
  rw [List.map_map]
  apply List.map_congr_left
  intro k hk
  exact hr.seen_shift (hn k hk).1 (hn k hk).2

/-- Workshifts are seen as their numbers tell. -/
theorem Timeboard.ListedAs.view_eq (hx : tb.ListedAs xs) (hv : tb.Valid) {w : Workshift L} (h0 : 0 ≤ w.loc) (h1 : w.loc < tb.timeline.len)
    (hl : tb.timeline.label w.loc = .ok w.label) : w.view tb = seen xs w.loc := by
  obtain ⟨x, h1, h2⟩ := hx.view hv h0 h1 hl
  rw [h1]; exact h2.symm

theorem new_view (hx : tb.ListedAs xs) (hv : tb.Valid) {p : Int} {sch : Option (Schedule L)} {w : Workshift L} (h0 : 0 ≤ p) (h1 : p < tb.timeline.len)
    (h : Workshift.new tb p sch = .ok w) : w.view tb = seen xs w.loc := by
  obtain ⟨w', b1, b2, _, b4, _⟩ := Workshift.exists_of_range hv sch h0 h1
  rw [h] at b1
  cases b1
  apply hx.view_eq hv <;> rw [b2]
  · exact h0
  · exact h1
  · exact b4

theorem workshiftAt_new {idx : List Int} {i : Int} {sc : Schedule L} {w : Workshift L} (h : workshiftAt tb idx i sc = .ok w) :
    ∃ p, Workshift.new tb p (some sc) = .ok w := by
  unfold workshiftAt at h
  split at h
  · cases h
  · exact ⟨_, h⟩

theorem Interval.nth_new {v : Interval L} {n : Int} {d : Duty} {sch : Option (Schedule L)} {w : Workshift L} (h : v.nth tb n d sch = .ok w) :
    ∃ p sc, Workshift.new tb p sc = .ok w := by
  unfold Interval.nth at h
  split at h
  · cases h
  · simp only at h
    split at h
    · cases h
    · cases h
    · rename_i idx a b _
      generalize (if n ≥ 0 then a + n else b + n + 1) = i at h
      split at h
      · cases h
      · obtain ⟨p, hp⟩ := workshiftAt_new h
        exact ⟨p, _, hp⟩

theorem Workshift.rollforward_new {w w1 : Workshift L} {n : Int} {d : Duty} {sch : Option (Schedule L)} (h : w.rollforward tb n d sch = .ok w1) :
    ∃ p sc, Workshift.new tb p sc = .ok w1 := by
  unfold Workshift.rollforward at h
  cases hi : w.dutyIndex tb d (sch.getD w.schedule) with
  | error er => simp only [hi] at h; cases h
  | ok idx =>
    simp only [hi, Bind.bind, Except.bind] at h
    split at h
    · cases h
    · obtain ⟨p, hp⟩ := workshiftAt_new h
      exact ⟨p, _, hp⟩

theorem Workshift.rollback_new {w w1 : Workshift L} {n : Int} {d : Duty} {sch : Option (Schedule L)} (h : w.rollback tb n d sch = .ok w1) :
    ∃ p sc, Workshift.new tb p sc = .ok w1 := by
  unfold Workshift.rollback at h
  cases hi : w.dutyIndex tb d (sch.getD w.schedule) with
  | error er => simp only [hi] at h; cases h
  | ok idx =>
    simp only [hi, Bind.bind, Except.bind] at h
    split at h
    · cases h
    · obtain ⟨p, hp⟩ := workshiftAt_new h
      exact ⟨p, _, hp⟩

theorem map_eq_of_ok {α β : Type} {x : Except Err α} {y : Except Err β} {f : α → β} (h : x.map f = y) {γ : Type} (g : α → γ) (g' : β → γ)
    (hg : ∀ w, x = .ok w → g w = g' (f w)) : x.map g = y.map g' := by
  subst h
  cases x with
  | error er => rfl
  | ok w => exact congrArg Except.ok (hg w rfl)

section
variable (hx : tb.ListedAs xs) (hv : tb.Valid) {v : Interval L} (hf : v.Fine tb) {sch : Option (Schedule L)} (hs : tb.OwnsOpt sch)
include hx hv hf hs

theorem Timeboard.ListedAs.nth_seen (n : Int) (d : Duty) : (v.nth tb n d sch).map (fun w => w.view tb) =
    (Reference.nth xs (sch.getD v.schedule).selector v.numbers n d).map (seen xs) := by
  refine map_eq_of_ok (hx.nth hv hf hs d n) _ _ ?_
  intro w hw
  have h1 := hx.nth hv hf hs d n
  rw [hw] at h1
  have hm : 0 ≤ w.loc ∧ w.loc < tb.timeline.len := by
    unfold Reference.nth known at h1
    split at h1
    · have h2 : orOut _ = .ok w.loc := h1.symm
      have h3 := orOut_eq_ok h2
      have h4 : w.loc ∈ Reference.among xs (sch.getD v.schedule).selector d v.numbers := by
        split at h3
        · exact List.mem_of_getElem? h3
        · exact List.mem_reverse.1 (List.mem_of_getElem? h3)
      exact hx.having_range _ _ _ (of_decide_eq_true (List.mem_filter.1 h4).2)
    · cases h1
  obtain ⟨p, sc, hp⟩ := Interval.nth_new hw
  have := Workshift.new_loc hp
  exact new_view hx hv (p := p) (by omega) (by omega) hp

theorem Timeboard.ListedAs.workshifts_seen (d : Duty) : (v.workshifts tb d sch).map (fun ws => ws.map (fun w => w.view tb)) =
    (Reference.workshifts xs (sch.getD v.schedule).selector v.numbers d).map (fun ks => ks.map (seen xs)) := by
  refine map_eq_of_ok (hx.workshifts hv hf hs d) _ _ ?_
  intro ws hws
  rw [List.map_map]
  apply List.map_congr_left
  intro w hw
  by_cases hd : d = .on ∨ d = .off ∨ d = .any
  · obtain ⟨ws', h1, h2, h3⟩ := hf.workshifts_spec hv hs hd
    rw [hws] at h1
    cases h1
    have h4 : w.loc ∈ Reference.among xs (sch.getD v.schedule).selector d v.numbers := by
      have := hx.workshifts hv hf hs d
      rw [hws] at this
      unfold Reference.workshifts at this
      rw [known_good hd] at this
      have this : ws.map (fun w : Workshift L => w.loc) = _ := Except.ok.inj this
      rw [← this]
      exact List.mem_map_of_mem (f := fun w : Workshift L => w.loc) hw
    have h5 := hx.having_range _ _ _ (of_decide_eq_true (List.mem_filter.1 h4).2)
    exact hx.view_eq hv h5.1 h5.2 (h3 w hw).2
  · exfalso
    have := hx.workshifts hv hf hs d
    rw [hws] at this
    unfold Reference.workshifts at this
    by_cases hn : v.numbers = []
    · rw [hn, known_nil] at this
      have this : ws.map (fun w : Workshift L => w.loc) = _ := Except.ok.inj this
      rw [among_nil] at this
      have h1 := List.mem_map_of_mem (f := fun w : Workshift L => w.loc) hw
      rw [this] at h1
      cases h1
    · rw [known_bad hd hn] at this
      cases this

end

end TB
