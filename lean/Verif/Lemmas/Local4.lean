import Verif.Lemmas.Local3
/-! Intervals and workshifts which two timeboards have in common. -/
namespace TB
open Reference
variable {L : Type} {tb tb' : Timeboard L} {s e : Time}

/-- The start and the end of an interval with workshifts of the run. -/
theorem Run.times {b : Timeboard L} {ys R : List (Shift L)} {c : Nat} {z : Interval L} (hr : Run ys R c s e) {qs : List Int} (ho : ∀ k ∈ qs, 0 ≤ k ∧ k < R.length)
    (hb : b.Valid) (hy : b.ListedAs ys) (hz : z.Fine b) (hnum : z.numbers = shiftBy c qs) :
    z.startTime b = .ok (qs.head?.map (Reference.getInt R Shift.start)) ∧ z.endTime b = .ok (qs.getLast?.map (Reference.getInt R Shift.stop)) := by
  rcases hz.shape with hp | hh
  · have l0 := hp.lo_nonneg
    have l1 := hp.lo_le_hi
    have l2 := hp.hi_lt
    rw [hp.numbers_eq] at hnum
    have hhead : qs.head? = some (z.lo - c) := by
      have := congrArg List.head? hnum
      rw [intRange_cons (by omega)] at this
      unfold shiftBy at this
      rw [List.head?_map] at this
      cases hq : qs.head? with
      | none => rw [hq] at this; cases this
      | some q =>
        rw [hq] at this
        simp only [List.head?_cons, Option.map_some, Option.some.injEq] at this
        congr 1; omega
    have hlast : qs.getLast? = some (z.hi - c) := by
      have := congrArg List.getLast? hnum
      rw [← intRange_append (a := z.lo) (b := z.hi) (c := z.hi + 1) (by omega) (by omega), intRange_cons (a := z.hi) (by omega), intRange_empty (a := z.hi + 1) (by omega),
        List.getLast?_concat] at this
      unfold shiftBy at this
      rw [List.getLast?_map] at this
      cases hq : qs.getLast? with
      | none => rw [hq] at this; cases this
      | some q =>
        rw [hq] at this
        simp only [Option.map_some, Option.some.injEq] at this
        congr 1; omega
    have r1 := ho _ (List.mem_of_head? hhead)
    have r2 := ho _ (List.mem_of_getLast? hlast)
    obtain ⟨w, b1, b2, _, _, b5, _⟩ := Workshift.exists_of_range hb none (k := z.lo) l0 (by omega)
    obtain ⟨w2, c1, c2, _, _, _, c6, _⟩ := Workshift.exists_of_range hb none (k := z.hi) (by omega) l2
    unfold Workshift.startTime at b5
    unfold Workshift.endTime at c6
    rw [b2] at b5
    rw [c2] at c6
    unfold Interval.startTime Interval.endTime
    rw [hp.not_void, hhead, hlast]
    simp only [Bool.false_eq_true, if_false, Option.map_some]
    rw [b5, c6]
    have g1 := hr.getInt (g := Shift.start) r1.1 r1.2
    have g2 := hr.getInt (g := Shift.stop) r2.1 r2.2
    rw [← g1, ← g2, show z.lo - (c : Int) + c = z.lo from by omega, show z.hi - (c : Int) + c = z.hi from by omega]
    unfold Reference.getInt
    obtain ⟨x, a1, _, a3, _, _, _⟩ := hy.get hb l0 (by omega)
    obtain ⟨x2, d1, _, _, d4, _, _⟩ := hy.get hb (k := z.hi) (by omega) l2
    rw [a1, d1]
    simp only [Except.map, Option.map_some, Option.getD_some]
    rw [a3, d4]
    exact ⟨rfl, rfl⟩
  · rw [hh.numbers_eq] at hnum
    have hq : qs = [] := shiftBy_eq_nil.1 hnum.symm
    unfold Interval.startTime Interval.endTime
    rw [hh.void, hq]
    exact ⟨rfl, rfl⟩

theorem Run.getInt_within {ys R : List (Shift L)} {c : Nat} (hr : Run ys R c s e) {k : Int} (h0 : 0 ≤ k) (h1 : k < R.length) :
    s ≤ Reference.getInt R Shift.start k ∧ Reference.getInt R Shift.stop k ≤ e := by
  obtain ⟨x, hx⟩ : ∃ x, R[k.toNat]? = some x := ⟨_, List.getElem?_eq_getElem (by omega)⟩
  unfold Reference.getInt
  rw [hx]
  exact hr.within x (List.mem_of_getElem? hx)

theorem Timeboard.getInterval_has {ref : Option IvlRef} {length : Option Int} {period : Option Freq} {clip : Bool} {closed : String} {sch : Option (Schedule L)}
    (hs : tb.OwnsOpt sch) {v : Interval L} (h : tb.getInterval ref length period clip closed sch = .ok v) :
    tb.HasInterval v ∧ v.schedule = tb.effective sch ∧ v.isVoid = false := by
  unfold Timeboard.getInterval at h
  split at h
  · cases h
  · simp only at h
    split at h
    · cases h
    · unfold Timeboard.finishInterval at h
      split at h
      · cases h
      · split at h
        · split at h <;> cases h
        · cases h
        · cases h
        · obtain ⟨_, _, _, e⟩ := Interval.new_ok_iff.1 h
          exact ⟨.new hs h, by rw [e], by rw [e]⟩

/-- The same outcome in terms of the run. -/
theorem sameInterval_of_run (h : tb.Reachable) (h' : tb'.Reachable) {xs xs' R : List (Shift L)} {a a' : Nat} (hx : tb.ListedAs xs) (hx' : tb'.ListedAs xs')
    (hr : Run xs R a s e) (hr' : Run xs' R a' s e) {ref : Option IvlRef} {length : Option Int} {period : Option Freq} {clip : Bool} {closed : String}
    {sch sch' : Option (Schedule L)} (hs : tb.OwnsOpt sch) (hs' : tb'.OwnsOpt sch') {r : Except Err (List Int)} (hrn : ∀ ns, r = .ok ns → ∀ k ∈ ns, 0 ≤ k ∧ k < R.length)
    (e1 : Reference.getInterval xs ref length period clip closed = r.map (shiftBy a)) (e2 : Reference.getInterval xs' ref length period clip closed = r.map (shiftBy a')) :
    tb.SameInterval tb' s e sch sch' (tb.getInterval ref length period clip closed sch) (tb'.getInterval ref length period clip closed sch') := by
  rw [← hx.getInterval h.valid ref length period clip closed sch] at e1
  rw [← hx'.getInterval h'.valid ref length period clip closed sch'] at e2
  cases g : tb.getInterval ref length period clip closed sch with
  | error er =>
    rw [g] at e1
    cases r with
    | ok ns => cases e1
    | error er2 =>
      cases e1
      cases g' : tb'.getInterval ref length period clip closed sch' with
      | ok v' => rw [g'] at e2; cases e2
      | error er' => rw [g'] at e2; cases e2; rfl
  | ok v =>
    rw [g] at e1
    cases r with
    | error er2 => cases e1
    | ok ns =>
      cases g' : tb'.getInterval ref length period clip closed sch' with
      | error er' => rw [g'] at e2; cases e2
      | ok v' =>
        rw [g'] at e2
        have e1 : v.numbers = shiftBy a ns := Except.ok.inj e1
        have e2 : v'.numbers = shiftBy a' ns := Except.ok.inj e2
        obtain ⟨v1, v2, v3⟩ := Timeboard.getInterval_has hs g
        obtain ⟨v1', v2', v3'⟩ := Timeboard.getInterval_has hs' g'
        have hn := hrn ns rfl
        have hf := v1.fine h.valid
        have ⟨t1, t2⟩ := hr.times hn h.valid hx hf e1
        have ⟨t1', t2'⟩ := hr'.times hn h'.valid hx' (v1'.fine h'.valid) e2
        have hne : ns ≠ [] := by
          intro hne
          subst hne
          have hp : v.Proper tb := by
            rcases hf.shape with hp | hh
            · exact hp
            · rw [hh.void] at v3; cases v3
          have l1 := hp.lo_le_hi
          rw [hp.numbers_eq, intRange_cons (by omega)] at e1
          cases e1
        refine ⟨v1, v1', v2, v2', ?_⟩
        have p1 := hn _ (List.head_mem hne)
        have p2 := hn _ (List.getLast_mem hne)
        rw [List.head?_eq_some_head hne] at t1 t1'
        rw [List.getLast?_eq_some_getLast hne] at t2 t2'
        exact ⟨_, _, ⟨t1, t2⟩, ⟨t1', t2'⟩, (hr.getInt_within p1.1 p1.2).1, (hr.getInt_within p2.1 p2.2).2⟩

theorem mem_cutTail {c : String} {ms : List Int} {k : Int} (hm : k ∈ cutTail c ms) : k ∈ ms := by
  unfold cutTail at hm
  split at hm
  · exact List.dropLast_subset _ hm
  · exact hm

theorem mem_cutHead {c : String} {ms : List Int} {k : Int} (hm : k ∈ cutHead c ms) : k ∈ ms := by
  unfold cutHead at hm
  split at hm
  · exact List.mem_of_mem_drop hm
  · exact hm

theorem orElse_eq_ok {er : Err} {ms ns : List Int} (h : Reference.orElse er ms = .ok ns) : ms = ns ∧ ms ≠ [] := by
  unfold Reference.orElse at h
  split at h
  · cases h
  · rename_i hne
    exact ⟨Except.ok.inj h, hne⟩

theorem byPeriod_mem {R : List (Shift L)} {clip : Bool} {c : String} {p : Period} {ns : List Int} (h : Reference.byPeriod R clip c p = .ok ns) :
    ∀ k ∈ ns, 0 ≤ k ∧ k < R.length := by
  have base : ∀ k ∈ referenced R p, 0 ≤ k ∧ k < R.length := fun k hk => ⟨(mem_those.1 hk).1, (mem_those.1 hk).2.1⟩
  intro k hk
  unfold Reference.byPeriod at h
  split at h
  · rw [← (orElse_eq_ok h).1] at hk
    exact base k (mem_cutHead (mem_cutTail hk))
  · split at h
    · cases h
    · split at h
      · rw [← (orElse_eq_ok h).1] at hk
        have h1 : k ∈ (if notBefore R p.startTime = true then cutHead c (referenced R p) else referenced R p) := by
          split at hk
          · exact mem_cutTail hk
          · exact hk
        split at h1
        · exact base k (mem_cutHead h1)
        · exact base k h1
      · cases h

theorem fromTo_mem {c : String} {i j n : Int} {ns : List Int} (h : fromTo c (.at i) (.at j) = .ok ns) (hi : 0 ≤ i) (hj : j < n) : ∀ k ∈ ns, 0 ≤ k ∧ k < n := by
  intro k hk
  simp only [fromTo] at h
  rw [← (orElse_eq_ok h).1] at hk
  have := (mem_intRange _ _ _).1 (mem_cutHead (mem_cutTail hk))
  omega

/-- The numbers of workshifts of both timeboards with the same start. -/
theorem shared_workshift (h : tb.Reachable) (h' : tb'.Reachable) {xs xs' R : List (Shift L)} {a a' : Nat} (hx : tb.ListedAs xs) (hx' : tb'.ListedAs xs') (hr : Run xs R a s e) (hr' : Run xs' R a' s e)
    {k k' : Int} {sw sw' : Option (Schedule L)} {w w' : Workshift L} (k0 : 0 ≤ k) (k0' : 0 ≤ k') (hw : Workshift.new tb k sw = .ok w) (hw' : Workshift.new tb' k' sw' = .ok w') {t : Time}
    (ht : w.startTime tb = .ok t) (ht' : w'.startTime tb' = .ok t) (h1 : s ≤ t) (h2 : t ≤ e) :
    k < tb.timeline.len ∧ k' < tb'.timeline.len ∧ ∃ p : Int, 0 ≤ p ∧ p < R.length ∧ k = p + a ∧ k' = p + a' := by
  have hv := h.valid
  have hv' := h'.valid
  have out : ∀ (b : Timeboard L) (k : Int) (sw : Option (Schedule L)), b.Valid → b.timeline.len ≤ k → Workshift.new b k sw = .error .outOfBounds := by
    intro b k sw hb hk
    unfold Workshift.new Timeline.label
    rw [pyGet?_ge _ (by have := hb.wf.labels_len; unfold Timeline.len at hk; omega)]
    rfl
  have hk : k < tb.timeline.len := by
    rcases Int.lt_or_le k tb.timeline.len with hk | hk
    · exact hk
    · rw [out tb k sw hv hk] at hw; cases hw
  have hk' : k' < tb'.timeline.len := by
    rcases Int.lt_or_le k' tb'.timeline.len with hk' | hk'
    · exact hk'
    · rw [out tb' k' sw' hv' hk'] at hw'; cases hw'
  refine ⟨hk, hk', ?_⟩
  obtain ⟨p, p0, p1, p2, p3, _, _⟩ := hr.place h1 h2
  obtain ⟨p', _, _, p2', p3', _, _⟩ := hr'.place h1 h2
  rw [p2] at p2'
  cases p2'
  have at1 : ∀ (b : Timeboard L) (k : Int) (sw : Option (Schedule L)) (w : Workshift L), b.Valid → 0 ≤ k → k < b.timeline.len → Workshift.new b k sw = .ok w →
      w.startTime b = .ok t → b.At t k := by
    intro b k sw w hb g0 g1 g2 g3
    obtain ⟨w2, b1, b2, _, _, b5, _⟩ := Workshift.exists_of_range hb sw g0 g1
    rw [g2] at b1
    cases b1
    rw [g3] at b5
    have b5 := Except.ok.inj b5
    have m := Frame.unitStart_lt_iff (f := b.timeline.frame).2 (hb.wf.bnd_lt_bnd (j := k) (k := k + 1) (by omega) (by omega) (by omega))
    exact hb.at_iff.2 ((hb.wf.wsPosition_ok_iff t k).2 ⟨g0, g1, by omega, by omega⟩)
  have e1 : Reference.getWorkshift xs t = .ok k := by unfold Reference.getWorkshift; rw [hx.head_at hv (at1 tb k sw w hv k0 hk hw ht)]; rfl
  have e2 : Reference.getWorkshift xs' t = .ok k' := by unfold Reference.getWorkshift; rw [hx'.head_at hv' (at1 tb' k' sw' w' hv' k0' hk' hw' ht')]; rfl
  rw [e1] at p3
  rw [e2] at p3'
  exact ⟨p, p0, p1, Except.ok.inj p3, Except.ok.inj p3'⟩

/-- A workshift which is seen in the time of the run is in the run. -/
theorem seen_in_run {xs R : List (Shift L)} {a : Nat} (hr : Run xs R a s e) {q : Int} {x : Shift L} (hq : 0 ≤ q) (hx : seen xs q = some x) (h1 : s ≤ x.start ∨ (a : Int) ≤ q) (h2 : x.stop ≤ e ∨ q < a + R.length) :
    (a : Int) ≤ q ∧ q < a + R.length := by
  obtain ⟨A, B, rfl, rfl, hA, hB⟩ := hr.split
  unfold seen at hx
  constructor
  · apply Classical.byContradiction
    intro hn
    rw [List.getElem?_append_left (by omega)] at hx
    have := hA x (List.mem_of_getElem? hx)
    rcases h1 with h1 | h1 <;> omega
  · apply Classical.byContradiction
    intro hn
    rw [List.getElem?_append_right (by omega), List.getElem?_append_right (by omega)] at hx
    have := hB x (List.mem_of_getElem? hx)
    rcases h2 with h2 | h2 <;> omega

/-- An interval of a given length, when it is entirely among the workshifts. -/
theorem byLength_at {zs : List (Shift L)} {c : String} {t : Time} {n k : Int} (hp : place zs t = .at k)
    (h0 : 0 ≤ if 0 < n then k else k + n + 1) (h1 : (if 0 < n then k + n - 1 else k) < zs.length) :
    Reference.byLength zs c t n = fromTo c (.at (if 0 < n then k else k + n + 1)) (.at (if 0 < n then k + n - 1 else k)) := by
  unfold Reference.byLength
  rw [hp]
  exact if_pos ⟨h0, h1⟩

end TB
