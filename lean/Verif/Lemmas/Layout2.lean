import Verif.Spec.Layout
import Verif.Lemmas.Timeboard
import Verif.Lemmas.Marker
/-! More laws of layouts: cycling, RememberingPatterns, from the organized frame to workshifts. -/
namespace TB
variable {L : Type}

/-! ### Cycles -/

theorem Cycle.handedOut_start {xs : List L} (h : xs ≠ []) : (Cycle.start xs).HandedOut xs 0 :=
  ⟨h, rfl, .inl (by simp [Cycle.start])⟩

theorem mod_succ_cases (p n : Nat) (hn : 0 < n) :
    ((p + 1) % n = p % n + 1 ∧ p % n + 1 < n) ∨ ((p + 1) % n = 0 ∧ p % n + 1 = n) := by
  have h1 := Nat.mod_lt p hn
  rw [Nat.add_mod]
  by_cases h : n = 1
  · subst h; right; omega
  · rw [Nat.mod_eq_of_lt (show 1 < n by omega)]
    by_cases h2 : p % n + 1 < n
    · left; exact ⟨Nat.mod_eq_of_lt h2, h2⟩
    · right
      have : p % n + 1 = n := by omega
      rw [this]; simp

theorem Cycle.HandedOut.next {c : Cycle L} {xs : List L} {p : Nat} (h : c.HandedOut xs p) :
    ∃ x c', c.next = some (x, c') ∧ cyclic xs p = some x ∧ c'.HandedOut xs (p + 1) := by
  obtain ⟨h1, h2, h3⟩ := h
  have hlen : 0 < xs.length := List.length_pos_iff.2 h1
  have hlt := Nat.mod_lt p hlen
  have hdrop : xs.drop (p % xs.length) = xs[p % xs.length] :: xs.drop (p % xs.length + 1) := by
    rw [List.drop_eq_getElem_cons hlt]
  have hc : cyclic xs p = some xs[p % xs.length] := by unfold cyclic; rw [List.getElem?_eq_getElem hlt]
  have hrest : ∀ c' : Cycle L, c'.saved = xs → c'.rest = xs.drop (p % xs.length + 1) → c'.HandedOut xs (p + 1) := by
    intro c' e1 e2
    refine ⟨h1, e1, ?_⟩
    rcases mod_succ_cases p xs.length hlen with ⟨e, _⟩ | ⟨e, e'⟩
    · left; rw [e, e2]
    · right; rw [e2, e']; exact ⟨by simp, e⟩
  rcases h3 with h3 | ⟨h3, h4⟩
  · refine ⟨xs[p % xs.length], { c with rest := xs.drop (p % xs.length + 1) }, ?_, hc, hrest _ h2 rfl⟩
    unfold Cycle.next
    rw [h3, hdrop]
  · have hxs : xs = xs[p % xs.length] :: xs.drop (p % xs.length + 1) := by
      rw [← hdrop, h4]; simp
    refine ⟨xs[p % xs.length], { c with rest := xs.drop (p % xs.length + 1) }, ?_, hc, hrest _ h2 rfl⟩
    have key : ∀ ys : List L, c.saved = ys → ys = xs[p % xs.length] :: xs.drop (p % xs.length + 1) →
        c.next = some (xs[p % xs.length], { c with rest := xs.drop (p % xs.length + 1) }) := by
      intro ys e1 e2
      subst e2
      unfold Cycle.next
      rw [h3, e1]
    exact key xs h2 hxs

theorem Heap.set_same (h : Heap L) (i : Nat) (c : Cycle L) : (h.set i c) i = c := by simp [Heap.set]
theorem Heap.set_other (h : Heap L) {i j : Nat} (c : Cycle L) (hij : j ≠ i) : (h.set i c) j = h j := by simp [Heap.set, hij]

/-- Drawing from a RememberingPattern. -/
theorem Src.take_shared {id : Nat} {xs : List L} : ∀ (n : Nat) {h : Heap L} {p : Nat}, (h id).HandedOut xs p →
    ∃ ys h', Src.take n (.shared id) h = some (ys, .shared id, h') ∧ ys.length = n ∧
      (∀ i, i < n → ys[i]? = cyclic xs (p + i)) ∧ (h' id).HandedOut xs (p + n) ∧ ∀ j, j ≠ id → h' j = h j := by
  intro n
  induction n with
  | zero => intro h p hp; exact ⟨[], h, rfl, rfl, by omega, hp, fun _ _ => rfl⟩
  | succ n ih =>
    intro h p hp
    obtain ⟨x, c', h1, h2, h3⟩ := hp.next
    obtain ⟨ys, h', g1, g2, g3, g4, g5⟩ := ih (h := h.set id c') (p := p + 1) (by rw [Heap.set_same]; exact h3)
    refine ⟨x :: ys, h', ?_, by simp [g2], ?_, ?_, ?_⟩
    · unfold Src.take
      simp only [Src.next, h1, g1]
    · intro i hi
      cases i with
      | zero => simp [h2]
      | succ i =>
        rw [List.getElem?_cons_succ, g3 i (by omega)]
        congr 1; omega
    · have e : p + (n + 1) = p + 1 + n := by omega
      rw [e]; exact g4
    · intro j hj; rw [g5 j hj, Heap.set_other _ _ hj]

/-- Drawing from a RememberingPattern does not touch the other ones, even if it fails. -/
theorem Src.take_shared_other {id : Nat} : ∀ (n : Nat) {h h' : Heap L} {ys : List L} {s' : Src L},
    Src.take n (.shared id) h = some (ys, s', h') → s' = .shared id ∧ ∀ j, j ≠ id → h' j = h j := by
  intro n
  induction n with
  | zero => intro h h' ys s' he; simp [Src.take] at he; exact ⟨he.2.1.symm, fun j _ => by rw [← he.2.2]⟩
  | succ n ih =>
    intro h h' ys s' he
    unfold Src.take at he
    cases hn : (h id).next with
    | none => simp [Src.next, hn] at he
    | some q =>
      obtain ⟨x, c'⟩ := q
      simp only [Src.next, hn] at he
      cases ht : Src.take n (.shared id) (h.set id c') with
      | none => simp [ht] at he
      | some r =>
        obtain ⟨zs, s2, h2⟩ := r
        rw [ht] at he
        simp only [Option.some.injEq, Prod.mk.injEq] at he
        obtain ⟨_, rfl, rfl⟩ := he
        obtain ⟨e1, e2⟩ := ih ht
        exact ⟨e1, fun j hj => by rw [e2 j hj, Heap.set_other _ _ hj]⟩

/-- Drawing from a plain list. -/
theorem Src.take_fresh {xs : List L} : ∀ (n : Nat) {c : Cycle L} {h : Heap L} {p : Nat}, c.HandedOut xs p →
    ∃ ys c', Src.take n (.fresh c) h = some (ys, .fresh c', h) ∧ ys.length = n ∧
      (∀ i, i < n → ys[i]? = cyclic xs (p + i)) ∧ c'.HandedOut xs (p + n) := by
  intro n
  induction n with
  | zero => intro c h p hp; exact ⟨[], c, rfl, rfl, by omega, hp⟩
  | succ n ih =>
    intro c h p hp
    obtain ⟨x, c', h1, h2, h3⟩ := hp.next
    obtain ⟨ys, c'', g1, g2, g3, g4⟩ := ih (c := c') (h := h) h3
    refine ⟨x :: ys, c'', ?_, by simp [g2], ?_, ?_⟩
    · unfold Src.take
      simp only [Src.next, h1, g1]
    · intro i hi
      cases i with
      | zero => simp [h2]
      | succ i =>
        rw [List.getElem?_cons_succ, g3 i (by omega)]
        congr 1; omega
    · have e : p + (n + 1) = p + 1 + n := by omega
      rw [e]; exact g4

theorem Src.take_fresh_heap : ∀ (n : Nat) {c : Cycle L} {h h' : Heap L} {ys : List L} {s' : Src L},
    Src.take n (.fresh c) h = some (ys, s', h') → h' = h ∧ ∃ c', s' = .fresh c' := by
  intro n
  induction n with
  | zero => intro c h h' ys s' he; simp [Src.take] at he; exact ⟨he.2.2.symm, c, he.2.1.symm⟩
  | succ n ih =>
    intro c h h' ys s' he
    unfold Src.take at he
    cases hn : c.next with
    | none => simp [Src.next, hn] at he
    | some q =>
      obtain ⟨x, c'⟩ := q
      simp only [Src.next, hn] at he
      cases ht : Src.take n (.fresh c') h with
      | none => simp [ht] at he
      | some r =>
        obtain ⟨zs, s2, h2⟩ := r
        rw [ht] at he
        simp only [Option.some.injEq, Prod.mk.injEq] at he
        obtain ⟨_, rfl, rfl⟩ := he
        exact ih ht

/-! ### Patterns -/

/-- A plain non-empty pattern applied to a span. -/
theorem applyPattern_list {xs : List L} (hx : xs ≠ []) {s : Span} {st : TLState L} (hs : 0 ≤ s.skipLeft) :
    ∃ st', applyPattern (.list xs) s st = .ok st' ∧ st'.heap = st.heap ∧ st'.mask = st.mask ∧
      (∀ i, s.first ≤ i → i ≤ s.last → some (st'.labels i) = cyclic xs (s.skipLeft + (i - s.first)).toNat) ∧
      ∀ i, (i < s.first ∨ s.last < i) → st'.labels i = st.labels i := by
  obtain ⟨ys, c', g1, g2, g3, g4⟩ := Src.take_fresh s.skipLeft.toNat (h := st.heap) (Cycle.handedOut_start hx)
  obtain ⟨zs, c'', k1, k2, k3, k4⟩ := Src.take_fresh (s.last + 1 - s.first).toNat (h := st.heap) g4
  have e : applyPattern (.list xs) s st = .ok
      { st with
        labels := fun i =>
          if s.first ≤ i ∧ i ≤ s.last then (zs[(i - s.first).toNat]?).getD (st.labels i) else st.labels i
        heap := st.heap } := by
    unfold applyPattern skiperatorTake
    simp only [if_neg (show ¬ s.skipLeft < 0 by omega), Pattern.src, g1, k1]
  refine ⟨_, e, rfl, rfl, ?_, ?_⟩
  · intro i h1 h2
    simp only
    rw [if_pos ⟨h1, h2⟩]
    have h3 := k3 (i - s.first).toNat (by omega)
    have h4 : (i - s.first).toNat < zs.length := by omega
    rw [List.getElem?_eq_getElem h4] at h3 ⊢
    simp only [Option.getD_some]
    rw [h3]
    congr 1; omega
  · intro i h1
    simp only
    rw [if_neg (by omega)]

/-- An empty pattern changes nothing. -/
theorem applyPattern_nil {s : Span} {st : TLState L} (hs : 0 ≤ s.skipLeft) (hle : s.first ≤ s.last) :
    applyPattern (.list []) s st = .ok st := by
  unfold applyPattern skiperatorTake
  rw [if_neg (by omega)]
  have hnone : ∀ n, 0 < n → Src.take n (Pattern.src (.list ([] : List L))) st.heap = none := by
    intro n hn
    cases n with
    | zero => omega
    | succ n => simp [Src.take, Src.next, Pattern.src, Cycle.next, Cycle.start]
  cases hz : s.skipLeft.toNat with
  | zero =>
    simp only [Src.take]
    rw [hnone _ (by omega)]
  | succ n => rw [hnone _ (by omega)]

theorem applyPattern_negative {p : Pattern L} {s : Span} {st : TLState L} (hs : s.skipLeft < 0) :
    applyPattern p s st = .error .outOfBounds := by unfold applyPattern; rw [if_pos hs]

/-- Plain patterns leave RememberingPatterns alone. -/
theorem applyPattern_list_heap {xs : List L} {s : Span} {st st' : TLState L} (h : applyPattern (.list xs) s st = .ok st') :
    st'.heap = st.heap := by
  unfold applyPattern skiperatorTake at h
  split at h
  · simp at h
  · split at h
    · simp at h; rw [h]
    · rename_i ys h' he
      simp only [Except.ok.injEq] at h
      subst h
      simp only
      split at he
      · simp at he
      · rename_i zs s' h1 ht
        split at he
        · simp at he
        · rename_i ws s'' h2 ht2
          simp only [Option.some.injEq, Prod.mk.injEq] at he
          obtain ⟨e1, c', e2⟩ := Src.take_fresh_heap _ (by simpa [Pattern.src] using ht)
          subst e2
          obtain ⟨e3, _⟩ := Src.take_fresh_heap _ ht2
          rw [← he.2, e3, e1]

/-! ### The structure in turns -/

/-- The loop over the spans, step by step. -/
theorem zipRun_states {steps : List (Step L)} : ∀ (ss : List Span) {c : Cycle (Step L)} {p : Nat} {st st' : TLState L},
    c.HandedOut steps p →
    (zipRun ss c st = .ok st' ↔ ∃ states : Nat → TLState L, states 0 = st ∧ states ss.length = st' ∧
      ∀ i s step, ss[i]? = some s → cyclic steps (p + i) = some step → step s (states i) = .ok (states (i + 1))) := by
  intro ss
  induction ss with
  | nil =>
    intro c p st st' hc
    simp only [zipRun, Except.ok.injEq, List.length_nil]
    constructor
    · rintro rfl; exact ⟨fun _ => st, rfl, rfl, by simp⟩
    · rintro ⟨f, h1, h2, _⟩; rw [← h1, ← h2]
  | cons s ss ih =>
    intro c p st st' hc
    obtain ⟨step, c', h1, h2, h3⟩ := hc.next
    unfold zipRun
    rw [h1]
    simp only
    constructor
    · intro h
      cases he : step s st with
      | error e => rw [he] at h; simp at h
      | ok st1 =>
        rw [he] at h
        obtain ⟨f, f1, f2, f3⟩ := (ih h3).1 h
        refine ⟨fun n => match n with | 0 => st | n + 1 => f n, rfl, f2, ?_⟩
        intro i x stp hx hstp
        cases i with
        | zero =>
          simp only [List.getElem?_cons_zero, Option.some.injEq] at hx
          subst hx
          rw [Nat.add_zero, h2] at hstp
          simp only [Option.some.injEq] at hstp
          subst hstp
          simp only
          rw [f1]; exact he
        | succ i =>
          simp only [List.getElem?_cons_succ] at hx
          simp only
          exact f3 i x stp hx (by rw [← hstp]; congr 1; omega)
    · rintro ⟨f, f1, f2, f3⟩
      have he := f3 0 s step rfl (by simpa using h2)
      rw [f1] at he
      rw [he]
      simp only
      refine (ih h3).2 ⟨fun n => f (n + 1), rfl, f2, ?_⟩
      intro i x stp hx hstp
      exact f3 (i + 1) x stp (by simpa using hx) (by rw [← hstp]; congr 1; omega)

theorem zipRun_nil {ss : List Span} {st : TLState L} : zipRun ss (Cycle.start []) st = .ok st := by
  cases ss with
  | nil => rfl
  | cons s ss => rfl

/-! ### Labels handed out by a RememberingPattern -/

/-- An element of a layout draws labels as listed. -/
def Tracks (id : Nat) (step : Step L) (draws : Span → List (Option Int)) : Prop :=
  ∀ (s : Span) (st st' : TLState L) (xs : List L) (p : Nat), s.first ≤ s.last → step s st = .ok st' → (st.heap id).HandedOut xs p →
    (st'.heap id).HandedOut xs (p + (draws s).length) ∧
    (∀ (n : Nat) (u : Int), (draws s)[n]? = some (some u) → s.first ≤ u ∧ u ≤ s.last ∧
      some (st'.labels u) = cyclic xs (p + n) ∧ st'.mask u = st.mask u)

theorem length_spanDraws (s : Span) : (spanDraws s).length = s.skipLeft.toNat + (s.last + 1 - s.first).toNat := by
  simp [spanDraws, length_intRange]

theorem tracks_rp (id j : Nat) : Tracks id (applyPattern (.rp j) : Step L) (fun s => if j = id then spanDraws s else []) := by
  intro s st st' xs p hle h hp
  unfold applyPattern at h
  split at h
  · simp at h
  rename_i hs
  by_cases hj : j = id
  · subst hj
    simp only [↓reduceIte]
    unfold skiperatorTake at h
    obtain ⟨ys, h1, g1, g2, g3, g4, g5⟩ := Src.take_shared s.skipLeft.toNat hp
    obtain ⟨zs, h2, k1, k2, k3, k4, k5⟩ := Src.take_shared (s.last + 1 - s.first).toNat g4
    simp only [Pattern.src, g1, k1, Except.ok.injEq] at h
    subst h
    constructor
    · rw [length_spanDraws, ← Nat.add_assoc]; exact k4
    · intro n u hn
      unfold spanDraws at hn
      rw [List.getElem?_append] at hn
      split at hn
      · rename_i hlt
        simp only [List.getElem?_replicate] at hn
        split at hn <;> simp at hn
      · rename_i hge
        simp only [List.length_replicate, Nat.not_lt] at hge hn
        simp only [List.getElem?_map, Option.map_eq_some_iff, Option.some.injEq, exists_eq_right] at hn
        rw [List.getElem?_eq_some_iff] at hn
        obtain ⟨hlt, he⟩ := hn
        rw [getElem_intRange] at he
        rw [length_intRange] at hlt
        refine ⟨by omega, by omega, ?_, rfl⟩
        simp only
        rw [if_pos (by omega)]
        have h3 := k3 (u - s.first).toNat (by omega)
        have h4 : (u - s.first).toNat < zs.length := by omega
        rw [List.getElem?_eq_getElem h4] at h3 ⊢
        simp only [Option.getD_some]
        rw [h3]
        congr 1; omega
  · simp only [if_neg hj, List.length_nil, Nat.add_zero, List.getElem?_nil, reduceCtorEq, false_implies, implies_true, and_true]
    unfold skiperatorTake at h
    split at h
    · simp at h; rw [← h]; exact hp
    · rename_i ys h' he
      simp only [Except.ok.injEq] at h
      subst h
      simp only
      split at he
      · simp at he
      · rename_i zs s' h1 ht
        split at he
        · simp at he
        · rename_i ws s'' h2 ht2
          simp only [Option.some.injEq, Prod.mk.injEq] at he
          simp only [Pattern.src] at ht
          obtain ⟨e1, e2⟩ := Src.take_shared_other _ ht
          subst e1
          obtain ⟨_, e3⟩ := Src.take_shared_other _ ht2
          rw [← he.2, e3 _ (fun h => hj h.symm), e2 _ (fun h => hj h.symm)]
          exact hp

theorem tracks_quiet {id : Nat} {step : Step L} (h : ∀ s st st', step s st = .ok st' → st'.heap = st.heap) :
    Tracks id step (fun _ => []) := by
  intro s st st' xs p hle he hp
  rw [h s st st' he]
  simpa using hp

theorem zipRunRP_tracks {ss : List Span} : ∀ {a b : Int} {id j : Nat} {st st' : TLState L} {xs : List L} {p : Nat}, Tiles a b ss →
    zipRunRP ss j st = .ok st' → (st.heap id).HandedOut xs p →
    (st'.heap id).HandedOut xs (p + (if j = id then ss.map (fun x => some x.first) else []).length) ∧
    (∀ (n : Nat) (u : Int), (if j = id then ss.map (fun x => some x.first) else [])[n]? = some (some u) → a ≤ u ∧ u ≤ b ∧
      some (st'.labels u) = cyclic xs (p + n) ∧ st'.mask u = st.mask u) := by
  induction ss with
  | nil => intro a b id j st st' xs p ht; exact ht.elim
  | cons s ss ih =>
    intro a b id j st st' xs p ht h hp
    have hm := ht.mem (List.mem_cons_self : s ∈ s :: ss)
    have hf : s.first = a := by cases ss <;> exact ht.1
    by_cases hj : j = id
    · subst hj
      simp only [↓reduceIte] at *
      obtain ⟨x, c', h1, h2, h3⟩ := hp.next
      unfold zipRunRP at h
      rw [h1] at h
      simp only at h
      obtain ⟨st1, he⟩ : ∃ st1, makeCompound x s { st with heap := st.heap.set j c' } = .ok st1 := ⟨_, rfl⟩
      rw [he] at h
      simp only at h
      have hloc := makeCompound_local x s _ st1 hm.2.1 he
      have hheap : (st1.heap j).HandedOut xs (p + 1) := by
        simp only [makeCompound, Except.ok.injEq] at he
        subst he
        simp only [Heap.set_same]; exact h3
      have hlab : st1.labels s.first = x := by
        simp only [makeCompound, Except.ok.injEq] at he
        subst he; simp
      cases ss with
      | nil =>
        simp [zipRunRP] at h; subst h
        refine ⟨by simpa using hheap, ?_⟩
        intro n u hn
        cases n with
        | zero =>
          simp only [List.map_cons, List.getElem?_cons_zero, Option.some.injEq] at hn
          subst hn
          exact ⟨by omega, by omega, by rw [hlab, Nat.add_zero, h2], hloc.2⟩
        | succ n => simp at hn
      | cons t r =>
        obtain ⟨_, h4, h5⟩ := ht
        obtain ⟨i1, i2⟩ := ih h5 h (j := j) (id := j) (by exact hheap)
        simp only [↓reduceIte] at i1 i2
        have hl2 := zipRunRP_local h5 h
        refine ⟨?_, ?_⟩
        · have e : p + ((s :: t :: r).map (fun x => some x.first)).length = p + 1 + ((t :: r).map (fun x => some x.first)).length := by
            simp only [List.length_map, List.length_cons]; omega
          rw [e]; exact i1
        · intro n u hn
          have hb := h5.le
          cases n with
          | zero =>
            simp only [List.map_cons, List.getElem?_cons_zero, Option.some.injEq] at hn
            subst hn
            have hlt : s.first < s.last + 1 := by omega
            refine ⟨by omega, by omega, ?_, ?_⟩
            · rw [(hl2.1 s.first (.inl hlt)).1, hlab, Nat.add_zero, h2]
            · rw [(hl2.1 s.first (.inl hlt)).2]; exact hloc.2
          | succ n =>
            rw [List.map_cons, List.getElem?_cons_succ] at hn
            obtain ⟨j1, j2, j3, j4⟩ := i2 n u hn
            refine ⟨by omega, j2, by rw [j3]; congr 1; omega, ?_⟩
            rw [j4]
            exact (hloc.1 u (.inr (by omega))).2
    · simp only [if_neg hj, List.length_nil, Nat.add_zero, List.getElem?_nil, reduceCtorEq, false_implies, implies_true, and_true] at *
      unfold zipRunRP at h
      cases hn : (st.heap j).next with
      | none => rw [hn] at h; simp at h; subst h; exact hp
      | some q =>
        obtain ⟨x, c'⟩ := q
        rw [hn] at h
        simp only [makeCompound] at h
        cases ss with
        | nil =>
          simp [zipRunRP] at h; subst h
          simp only [Heap.set_other _ _ (fun h => hj h.symm : id ≠ j)]; exact hp
        | cons t r =>
          have := ih (id := id) (xs := xs) (p := p) ht.2.2 h (by simp only [Heap.set_other _ _ (fun h => hj h.symm : id ≠ j)]; exact hp)
          simpa [if_neg hj] using this

theorem zipRun_tracks {id : Nat} {steps : List (Step L)} {ds : List (Span → List (Option Int))} (hl : steps.length = ds.length)
    (hsl : ∀ s ∈ steps, Step.Local s)
    (htr : ∀ (i : Nat) (s : Step L) (d : Span → List (Option Int)), steps[i]? = some s → ds[i]? = some d → Tracks id s d) :
    ∀ (ss : List Span) {a b : Int} {c : Cycle (Step L)} {q p : Nat} {st st' : TLState L} {xs : List L}, c.HandedOut steps q → Tiles a b ss →
    zipRun ss c st = .ok st' → (st.heap id).HandedOut xs p →
    (st'.heap id).HandedOut xs (p + ((ss.zipIdx q).flatMap (fun si => match ds[si.2 % ds.length]? with
      | some d => d si.1
      | none => [])).length) ∧
    (∀ (n : Nat) (u : Int), ((ss.zipIdx q).flatMap (fun si => match ds[si.2 % ds.length]? with
      | some d => d si.1
      | none => []))[n]? = some (some u) → a ≤ u ∧ u ≤ b ∧
      some (st'.labels u) = cyclic xs (p + n) ∧ st'.mask u = st.mask u) := by
  intro ss
  induction ss with
  | nil => intro a b c q p st st' xs hc ht; exact ht.elim
  | cons s ss ih =>
    intro a b c q p st st' xs hc ht h hp
    have hm := ht.mem (List.mem_cons_self : s ∈ s :: ss)
    have hf : s.first = a := by cases ss <;> exact ht.1
    obtain ⟨step, c', h1, h2, h3⟩ := hc.next
    unfold zipRun at h
    rw [h1] at h
    simp only at h
    cases he : step s st with
    | error e => rw [he] at h; simp at h
    | ok st1 =>
      rw [he] at h
      simp only at h
      have hlen : 0 < steps.length := List.length_pos_iff.2 hc.1
      have hqlt : q % ds.length < ds.length := Nat.mod_lt _ (by omega)
      obtain ⟨d, hd⟩ : ∃ d, ds[q % ds.length]? = some d := ⟨_, List.getElem?_eq_getElem hqlt⟩
      have hstep : steps[q % ds.length]? = some step := by rw [← hl]; exact h2
      have hmem : step ∈ steps := List.mem_of_getElem? hstep
      obtain ⟨t1, t2⟩ := htr _ _ _ hstep hd s st st1 xs p hm.2.1 he hp
      obtain ⟨l1, l2⟩ := hsl _ hmem s st st1 hm.2.1 he
      simp only [List.zipIdx_cons, List.flatMap_cons, hd]
      cases ss with
      | nil =>
        simp [zipRun] at h; subst h
        simp only [List.zipIdx_nil, List.flatMap_nil, List.append_nil]
        have hlast : s.last = b := ht.2.1
        refine ⟨t1, fun n u hn => ?_⟩
        obtain ⟨j1, j2, j3⟩ := t2 n u hn
        exact ⟨by omega, by omega, j3⟩
      | cons t r =>
        obtain ⟨_, h4, h5⟩ := ht
        obtain ⟨i1, i2⟩ := ih h3 h5 h t1
        have hcm : ∀ p' ∈ c'.saved, Step.Local p' := by
          intro p' hp'; rw [h3.2.1] at hp'; exact hsl _ hp'
        have hcr : ∀ p' ∈ c'.rest, Step.Local p' := by
          intro p' hp'
          rcases h3.2.2 with e | ⟨e, _⟩
          · rw [e] at hp'; exact hsl _ (List.mem_of_mem_drop hp')
          · rw [e] at hp'; simp at hp'
        have hl2 := zipRun_local h5 hcm hcr h
        have hb := h5.le
        refine ⟨?_, ?_⟩
        · rw [List.length_append, ← Nat.add_assoc]; exact i1
        · intro n u hn
          rw [List.getElem?_append] at hn
          split at hn
          · rename_i hlt
            obtain ⟨j1, j2, j3, j4⟩ := t2 n u hn
            have hlt' : u < s.last + 1 := by omega
            refine ⟨by omega, by omega, ?_, ?_⟩
            · rw [(hl2.1 u (.inl hlt')).1]; exact j3
            · rw [(hl2.1 u (.inl hlt')).2]; exact j4
          · rename_i hge
            obtain ⟨j1, j2, j3, j4⟩ := i2 _ u hn
            refine ⟨by omega, j2, by rw [j3]; congr 1; omega, ?_⟩
            rw [j4]; exact (l1 u (.inr (by omega))).2

theorem Layout.length_runAll (f : Frame) (ls : List (Layout L)) : (Layout.runAll f ls).length = ls.length := by
  induction ls with
  | nil => simp [Layout.runAll]
  | cons l ls ih => simp [Layout.runAll, ih]

theorem Layout.length_drawsAll (f : Frame) (id : Nat) (ls : List (Layout L)) : (Layout.drawsAll f id ls).length = ls.length := by
  induction ls with
  | nil => simp [Layout.drawsAll]
  | cons l ls ih => simp [Layout.drawsAll, ih]

theorem Layout.getElem?_runAll (f : Frame) (ls : List (Layout L)) (i : Nat) : (Layout.runAll f ls)[i]? = (ls[i]?).map (Layout.run f) := by
  induction ls generalizing i with
  | nil => simp [Layout.runAll]
  | cons l ls ih => cases i <;> simp [Layout.runAll, ih]

mutual
theorem Layout.run_tracks (f : Frame) (id : Nat) : ∀ l : Layout L, Tracks id (Layout.run f l) (Layout.draws f id l)
  | .organizer cut elems => by
    intro s st st' xs p hle h hp
    simp only [Layout.run] at h
    simp only [Layout.draws]
    cases hc : f.cutSpan cut s with
    | error e => rw [hc] at h; simp at h
    | ok ss =>
      rw [hc] at h
      simp only at h ⊢
      have htl := (Frame.cutSpan_tiles hc).2.2
      by_cases hnil : Layout.runAll f elems = []
      · have : elems = [] := by
          cases elems with
          | nil => rfl
          | cons l ls => simp [Layout.runAll] at hnil
        subst this
        simp only [Layout.runAll, zipRun_nil, Except.ok.injEq] at h
        subst h
        have e : inTurns (Layout.drawsAll f id ([] : List (Layout L))) ss = [] := by
          simp [inTurns, Layout.drawsAll]
        rw [e]
        simpa using hp
      · exact zipRun_tracks (by rw [Layout.length_runAll, Layout.length_drawsAll]) (Layout.runAll_local f elems)
          (Layout.runAll_tracks f id elems) ss (Cycle.handedOut_start hnil) htl h hp
  | .organizerRP cut j => by
    intro s st st' xs p hle h hp
    simp only [Layout.run] at h
    simp only [Layout.draws]
    cases hc : f.cutSpan cut s with
    | error e => rw [hc] at h; simp at h
    | ok ss =>
      rw [hc] at h
      exact zipRunRP_tracks (Frame.cutSpan_tiles hc).2.2 h hp
  | .pattern (.rp j) => by
    simp only [Layout.run, Layout.draws]; exact tracks_rp id j
  | .pattern (.list xs) => by
    simp only [Layout.run, Layout.draws]
    exact tracks_quiet (fun s st st' h => applyPattern_list_heap h)
  | .label l => by
    simp only [Layout.run, Layout.draws]
    refine tracks_quiet (fun s st st' h => ?_)
    simp only [makeCompound, Except.ok.injEq] at h
    subst h; rfl
theorem Layout.runAll_tracks (f : Frame) (id : Nat) : ∀ (ls : List (Layout L)) (i : Nat) (s : Step L) (d : Span → List (Option Int)),
    (Layout.runAll f ls)[i]? = some s → (Layout.drawsAll f id ls)[i]? = some d → Tracks id s d
  | [] => by intro i s d h; simp [Layout.runAll] at h
  | l :: ls => by
    intro i s d h1 h2
    cases i with
    | zero =>
      simp only [Layout.runAll, Layout.drawsAll, List.getElem?_cons_zero, Option.some.injEq] at h1 h2
      subst h1; subst h2
      exact Layout.run_tracks f id l
    | succ i =>
      simp only [Layout.runAll, Layout.drawsAll, List.getElem?_cons_succ] at h1 h2
      exact Layout.runAll_tracks f id ls i s d h1 h2
end

/-! ### From the organized frame to workshifts -/

/-- The initial state of `_Timeline.__init__`. -/
def TLState.init (data : L) (heap : Heap L) : TLState L := { labels := fun _ => data, mask := fun _ => true, heap := heap }

theorem Timeboard.starts_iff {a : Args L} {heap heap' : Heap L} {tb : Timeboard L} (ha : a.amendments = [])
    (h : Timeboard.new a heap = .ok (tb, heap')) :
    ∃ org f st, makeOrganizer a.layout = .ok org ∧ Frame.new a.freq a.start a.stop = .ok f ∧ 0 < f.n ∧ tb.timeline.frame = f ∧
      Layout.run f org { first := 0, last := (f.n : Int) - 1 } (TLState.init a.defaultLabel heap) = .ok st ∧ heap' = st.heap ∧
      st.mask 0 = true ∧
      ∀ t d l, tb.Starts t d l ↔ ∃ i : Int, 0 ≤ i ∧ i + d ≤ f.n ∧ 1 ≤ d ∧ t = f.unitStart i ∧ st.mask i = true ∧ l = st.labels i ∧
        (∀ j, i < j → j < i + d → st.mask j = false) ∧ (i + d < f.n → st.mask (i + d) = true) := by
  have hv : tb.Valid := (Timeboard.Reachable.new h).valid
  obtain ⟨org, f, tl0, tl, h1, h2, h3, h4, h5, htb⟩ := Timeboard.new_ok_iff.1 h
  rw [ha] at h5
  have h5' := h5.symm.trans (show tl0.amend [] = .ok tl0 from rfl)
  simp only [Except.ok.injEq] at h5'
  have e0 : tb.timeline = tl0 := by rw [htb, ← h5']
  clear htb h5 h5'
  have hn := Frame.new_valid h3
  have hwf := hv.wf
  rw [e0] at hwf ⊢
  unfold Timeline.new at h4
  simp only at h4
  cases hr : Layout.run f org { first := 0, last := (f.n : Int) - 1 } (TLState.init a.defaultLabel heap) with
  | error e =>
    unfold TLState.init at hr
    rw [hr] at h4; simp at h4
  | ok st =>
    have hm0 := (Layout.run_local f org _ _ _ (by simp only; unfold Frame.Valid at hn; omega) hr).2
    unfold TLState.init at hr
    rw [hr] at h4
    simp only [Except.ok.injEq, Prod.mk.injEq] at h4
    obtain ⟨htl, hheap⟩ := h4
    have e1 : tl0.frame = f := by rw [← htl]
    have e2 : tl0.wsIdx = nonzeroMask st.mask f.n := by rw [← htl]
    have e3 : tl0.labels = (nonzeroMask st.mask f.n).map st.labels := by rw [← htl]
    refine ⟨org, f, st, h1, h3, hn, e1, hr, hheap.symm, by rw [hm0]; rfl, ?_⟩
    have hmem : ∀ k, 0 ≤ k → k < tl0.len → st.mask (tl0.bnd k) = true := by
      intro k k0 k1
      obtain ⟨hh, e⟩ := tl0.bnd_lt k0 k1
      have := List.getElem_mem hh
      rw [← e, e2, mem_nonzeroMask] at this
      exact this.2.2
    have hbetween : ∀ k j, 0 ≤ k → k < tl0.len → tl0.bnd k < j → j < tl0.bnd (k + 1) → st.mask j = false := by
      intro k j k0 k1 hj1 hj2
      cases hmj : st.mask j with
      | false => rfl
      | true =>
        exfalso
        have hb := hwf.bnd_succ_range k0 k1
        have hb0 := hwf.bnd_range k0 k1
        rw [e1] at hb
        have hjm : j ∈ tl0.wsIdx := by rw [e2, mem_nonzeroMask]; exact ⟨by omega, by omega, hmj⟩
        obtain ⟨m, hm, em⟩ := List.getElem_of_mem hjm
        have hmk : tl0.bnd (m : Int) = j := by
          obtain ⟨hh, e⟩ := tl0.bnd_lt (k := (m : Int)) (by omega) (by unfold Timeline.len; omega)
          rw [e]; simpa using em
        rw [← hmk] at hj1 hj2
        have hml : (m : Int) < tl0.len := by unfold Timeline.len; omega
        have q1 := (hwf.bnd_lt_iff k0 (by omega) (by omega) (by omega : (m : Int) ≤ tl0.len)).1 hj1
        have q2 := (hwf.bnd_lt_iff (j := (m : Int)) (k := k + 1) (by omega) (by omega) (by omega) (by omega)).1 hj2
        omega
    have hlabel : ∀ k l, 0 ≤ k → k < tl0.len → tl0.label k = .ok l → l = st.labels (tl0.bnd k) := by
      intro k l k0 k1 hl
      obtain ⟨hh, e⟩ := hwf.label_eq k0 k1
      obtain ⟨hb, eb⟩ := tl0.bnd_lt k0 k1
      rw [e] at hl
      simp only [Except.ok.injEq] at hl
      rw [← hl, eb]
      simp only [e3, e2, List.getElem_map]
    have hstarts : ∀ t d l, tb.Starts t d l ↔ ∃ k, 0 ≤ k ∧ k < tl0.len ∧ t = f.unitStart (tl0.bnd k) ∧ d = tl0.bnd (k + 1) - tl0.bnd k ∧
        tl0.label k = .ok l := by
      intro t d l
      constructor
      · rintro ⟨k, w, k0, k1, hw, hs, hd, hl⟩
        obtain ⟨w', hw', _, _, hlab, hs', _, _, hd'⟩ := Workshift.exists_of_range hv none k0 k1
        cases Workshift.ext_new hw hw'
        rw [hs'] at hs; rw [hd'] at hd
        simp only [Except.ok.injEq, e0, e1] at hs hd k1 hlab
        exact ⟨k, k0, k1, hs.symm, hd.symm, by rw [hlab, hl]⟩
      · rintro ⟨k, k0, k1, ht, hd, hl⟩
        rw [← e0] at k1
        obtain ⟨w', hw', _, _, hlab, hs', _, _, hd'⟩ := Workshift.exists_of_range hv none k0 k1
        simp only [e0, e1] at hs' hd' hlab
        refine ⟨k, w', k0, k1, hw', by rw [hs', ht], by rw [hd', hd], ?_⟩
        rw [hl] at hlab
        simp only [Except.ok.injEq] at hlab
        exact hlab.symm
    intro t d l
    rw [hstarts]
    constructor
    · rintro ⟨k, k0, k1, hs, hd, hl⟩
      have q1 := hwf.bnd_range k0 k1
      have q2 := hwf.bnd_succ_range k0 k1
      have q3 := hwf.bnd_lt_bnd k0 (by omega : k < k + 1) (by omega)
      rw [e1] at q1 q2
      refine ⟨tl0.bnd k, q1.1, by omega, by omega, hs, hmem k k0 k1, hlabel k _ k0 k1 hl, ?_, ?_⟩
      · intro j hj1 hj2; exact hbetween k j k0 k1 hj1 (by omega)
      · intro hlt
        have hk1 : k + 1 < tl0.len := by
          rcases Int.lt_or_le (k + 1) tl0.len with h' | h'
          · exact h'
          · have := tl0.bnd_ge h'; rw [e1] at this; omega
        have e4 : tl0.bnd k + d = tl0.bnd (k + 1) := by omega
        rw [e4]
        exact hmem (k + 1) (by omega) hk1
    · rintro ⟨i, hi0, hid, hd1, ht, hmi, hl, hbt, hnx⟩
      have him : i ∈ tl0.wsIdx := by rw [e2, mem_nonzeroMask]; exact ⟨by omega, by omega, hmi⟩
      obtain ⟨m, hm, em⟩ := List.getElem_of_mem him
      have hml : (m : Int) < tl0.len := by unfold Timeline.len; omega
      have hmk : tl0.bnd (m : Int) = i := by
        obtain ⟨hh, e⟩ := tl0.bnd_lt (k := (m : Int)) (by omega) hml
        rw [e]; simpa using em
      refine ⟨m, by omega, hml, by rw [hmk, ht], ?_, ?_⟩
      · rw [hmk]
        have q2 := hwf.bnd_succ_range (k := (m : Int)) (by omega) hml
        have q3 := hwf.bnd_lt_bnd (j := (m : Int)) (k := (m : Int) + 1) (by omega) (by omega) (by omega)
        rw [e1] at q2
        rw [hmk] at q3
        have : tl0.bnd ((m : Int) + 1) = i + d := by
          rcases Int.lt_trichotomy (tl0.bnd ((m : Int) + 1)) (i + d) with hc | hc | hc
          · exfalso
            have hf := hbt _ q3 hc
            have hlt : (m : Int) + 1 < tl0.len := by
              rcases Int.lt_or_le ((m : Int) + 1) tl0.len with h' | h'
              · exact h'
              · have := tl0.bnd_ge h'; rw [e1] at this; omega
            rw [hmem _ (by omega) hlt] at hf
            cases hf
          · exact hc
          · exfalso
            have hf := hbetween m (i + d) (by omega) hml (by omega) hc
            rw [hnx (by omega)] at hf
            cases hf
        rw [this]; omega
      · obtain ⟨l', hl'⟩ := hwf.label_ok (k := (m : Int)) (by omega) hml
        have := hlabel m _ (by omega) hml hl'
        rw [hl', this, hmk, hl]

end TB
