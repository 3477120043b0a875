import Verif.Lemmas.MarkerZero
import Verif.Lemmas.Anchor
import Verif.Lemmas.MarkerHow
import Verif.Lemmas.Timeboard
import Verif.Spec.Notation
/-! Equivalent notations of layouts: lemmas. -/
namespace TB

/-- Which points remain, repetitions allowed. -/
theorem mem_sliceAtPoints_iff' {pts : List Time} {a b x : Int} (hs : pts.Pairwise (· ≤ ·)) (hab : a < b) :
    x ∈ sliceAtPoints pts a b ↔ x ∈ pts ∧ (∀ y ∈ pts, x < y → a < y) ∧ (∀ y ∈ pts, y < x → y < b) := by
  rw [mem_sliceAtPoints_idx]
  have hr := ssRight_le pts a
  have hl := ssLeft_nonneg pts b
  constructor
  · rintro ⟨k, hk, rfl, h1, h2⟩
    refine ⟨List.getElem_mem _, ?_, ?_⟩
    · intro y hy hlt
      obtain ⟨j, hj, rfl⟩ := List.getElem_of_mem hy
      have e := getElem_le_iff hs a j hj
      have : k < j := by
        apply Classical.byContradiction
        intro hn
        rcases Nat.lt_or_ge j k with h | h
        · have := List.pairwise_iff_getElem.1 hs j k hj hk h; omega
        · have : j = k := by omega
          subst this; omega
      omega
    · intro y hy hlt
      obtain ⟨j, hj, rfl⟩ := List.getElem_of_mem hy
      have e := getElem_lt_iff hs b j hj
      have : j < k := by
        apply Classical.byContradiction
        intro hn
        rcases Nat.lt_or_ge k j with h | h
        · have := List.pairwise_iff_getElem.1 hs k j hk hj h; omega
        · have : j = k := by omega
          subst this; omega
      omega
  · rintro ⟨hx, h1, h2⟩
    obtain ⟨j, hj, e⟩ := List.getElem_of_mem hx
    by_cases hxa : x ≤ a
    · -- the last copy
      have g1 := (getElem_le_iff hs x j hj).1 (by omega)
      have g2 := ssRight_le pts x
      have hk : (ssRight pts x - 1).toNat < pts.length := by omega
      have g3 := (getElem_le_iff hs x _ hk).2 (by omega)
      have g4 : x ≤ pts[(ssRight pts x - 1).toNat] := by
        rcases Nat.lt_or_ge j (ssRight pts x - 1).toNat with h | h
        · have := List.pairwise_iff_getElem.1 hs j _ hj hk h; omega
        · have : j = (ssRight pts x - 1).toNat := by omega
          subst this; omega
      refine ⟨_, hk, by omega, ?_, ?_⟩
      · apply Classical.byContradiction
        intro hn
        have hk' : (ssRight pts x).toNat < pts.length := by omega
        have l1 := (getElem_le_iff hs a _ hk').2 (by omega)
        have l2 := (getElem_le_iff hs x _ hk')
        have := h1 _ (List.getElem_mem hk') (by omega)
        omega
      · have := (getElem_lt_iff hs b _ hk).1 (by omega)
        omega
    · by_cases hxb : x < b
      · have e1 := getElem_le_iff hs a j hj
        have e2 := getElem_lt_iff hs b j hj
        exact ⟨j, hj, e, by omega, by omega⟩
      · -- the first copy
        have g1 := getElem_lt_iff hs x j hj
        have g2 := ssLeft_nonneg pts x
        have hk : (ssLeft pts x).toNat < pts.length := by omega
        have g3 := getElem_lt_iff hs x _ hk
        have g4 : pts[(ssLeft pts x).toNat] ≤ x := by
          rcases Nat.lt_or_ge (ssLeft pts x).toNat j with h | h
          · have := List.pairwise_iff_getElem.1 hs _ j hk hj h; omega
          · have : j = (ssLeft pts x).toNat := by omega
            subst this; omega
        have e1 := getElem_le_iff hs a _ hk
        refine ⟨_, hk, by omega, by omega, ?_⟩
        apply Classical.byContradiction
        intro hn
        have hk' : (ssLeft pts x).toNat - 1 < pts.length := by omega
        have l1 := getElem_lt_iff hs b _ hk'
        have l2 := getElem_lt_iff hs x _ hk'
        have := h2 _ (List.getElem_mem hk') (by omega)
        omega

theorem sorted_head?_ext {xs ys : List Int} (hx : xs.Pairwise (· ≤ ·)) (hy : ys.Pairwise (· ≤ ·)) (h : ∀ x, x ∈ xs ↔ x ∈ ys) :
    xs.head? = ys.head? := by
  cases xs with
  | nil =>
    cases ys with
    | nil => rfl
    | cons y ys => exact absurd ((h y).2 (by simp)) (by simp)
  | cons x xs =>
    cases ys with
    | nil => exact absurd ((h x).1 (by simp)) (by simp)
    | cons y ys =>
      have h1 : y ≤ x := by
        rcases List.mem_cons.1 ((h x).1 (by simp)) with e | e
        · omega
        · exact (List.pairwise_cons.1 hy).1 x e
      have h2 : x ≤ y := by
        rcases List.mem_cons.1 ((h y).2 (by simp)) with e | e
        · omega
        · exact (List.pairwise_cons.1 hx).1 y e
      simp; omega

theorem sorted_getLast?_ext {xs ys : List Int} (hx : xs.Pairwise (· ≤ ·)) (hy : ys.Pairwise (· ≤ ·)) (h : ∀ x, x ∈ xs ↔ x ∈ ys) :
    xs.getLast? = ys.getLast? := by
  have key : ∀ {xs : List Int}, xs.Pairwise (· ≤ ·) → ∀ a, xs.getLast? = some a → ∀ x ∈ xs, x ≤ a := by
    intro xs hx a ha x hxm
    rw [List.getLast?_eq_some_iff] at ha
    obtain ⟨zs, rfl⟩ := ha
    rcases List.mem_append.1 hxm with e | e
    · exact (List.pairwise_append.1 hx).2.2 x e a (by simp)
    · simp at e; omega
  cases e1 : xs.getLast? with
  | none =>
    rw [List.getLast?_eq_none_iff] at e1
    subst e1
    cases ys with
    | nil => rfl
    | cons y ys => exact absurd ((h y).2 (by simp)) (by simp)
  | some a =>
    cases e2 : ys.getLast? with
    | none =>
      rw [List.getLast?_eq_none_iff] at e2
      subst e2
      have := List.mem_of_getLast? e1
      rw [h] at this; cases this
    | some b =>
      have h1 := key hx a e1 b ((h b).2 (List.mem_of_getLast? e2))
      have h2 := key hy b e2 a ((h a).1 (List.mem_of_getLast? e1))
      simp; omega

theorem pairwise_sliceAtPoints {pts : List Time} {a b : Int} (h : pts.Pairwise (· ≤ ·)) : (sliceAtPoints pts a b).Pairwise (· ≤ ·) := by
  unfold sliceAtPoints
  exact (h.sublist (List.take_sublist _ _)).sublist (List.drop_sublist _ _)

theorem collectAts_ok_iff (pi : Frame) (bu : Freq) : ∀ ats : List (Frame → Freq → Except Err (List Time)),
    (∀ pts, collectAts pi bu ats = .ok pts → ∀ t, t ∈ pts ↔ ∃ g ∈ ats, ∃ p, g pi bu = .ok p ∧ t ∈ p) ∧
    ((∃ pts, collectAts pi bu ats = .ok pts) ↔ ∀ g ∈ ats, ∃ p, g pi bu = .ok p)
  | [] => by
    constructor
    · intro pts h t; simp only [collectAts] at h; cases h; simp
    · simp [collectAts]
  | g :: gs => by
    obtain ⟨i1, i2⟩ := collectAts_ok_iff pi bu gs
    cases hg : g pi bu with
    | error e =>
      have e1 : collectAts pi bu (g :: gs) = .error e := by simp [collectAts, hg, bind, Except.bind]
      rw [e1]
      refine ⟨fun p h => by (cases h), ⟨fun ⟨p, h⟩ => by (cases h), ?_⟩⟩
      intro h
      obtain ⟨p, hp⟩ := h g (by simp)
      rw [hg] at hp; cases hp
    | ok p =>
      cases hc : collectAts pi bu gs with
      | error e =>
        have e1 : collectAts pi bu (g :: gs) = .error e := by simp [collectAts, hg, hc, bind, Except.bind]
        rw [e1]
        refine ⟨fun p h => by (cases h), ⟨fun ⟨p, h⟩ => by (cases h), ?_⟩⟩
        intro h
        obtain ⟨q, hq⟩ := i2.2 (fun x hx => h x (by simp [hx]))
        rw [hc] at hq; cases hq
      | ok q =>
        have e1 : collectAts pi bu (g :: gs) = .ok (p ++ q) := by simp [collectAts, hg, hc, bind, Except.bind, pure, Except.pure]
        rw [e1]
        constructor
        · intro pts h t
          injection h with h
          subst h
          rw [List.mem_append, i1 q hc]
          constructor
          · rintro (h | ⟨g', h1, h2⟩)
            · exact ⟨g, by simp, p, hg, h⟩
            · exact ⟨g', by simp [h1], h2⟩
          · rintro ⟨g', h1, p', h2, h3⟩
            rcases List.mem_cons.1 h1 with rfl | h1
            · rw [hg] at h2; cases h2; exact .inl h3
            · exact .inr ⟨g', h1, p', h2, h3⟩
        · refine ⟨fun _ x hx => ?_, fun _ => ⟨_, rfl⟩⟩
          rcases List.mem_cons.1 hx with rfl | hx
          · exact ⟨p, hg⟩
          · exact i2.1 ⟨q, hc⟩ x hx


theorem Frame.unitStart_lt_unitEnd (f : Frame) {i j : Int} (h : i ≤ j) : f.unitStart i < f.unitEnd j := by
  have := f.unitStart_add_sec i
  have := Frame.unitStart_le_iff (f := f) (i := i + 1) (j := j + 1)
  have : (1 : Int) < nsSec := by decide
  rw [Frame.unitEnd_eq]
  omega

/-- Only the set of the points matters for the sub-spans. -/
theorem Frame.createSubspans_ext (f : Frame) (s : Span) {pts pts' : List Time} (h : ∀ t, t ∈ pts ↔ t ∈ pts') :
    f.createSubspans s pts = f.createSubspans s pts' := by
  have e : sortedSet (f.getLocVectorized pts s.first s.last) = sortedSet (f.getLocVectorized pts' s.first s.last) := by
    apply pairwise_lt_ext (pairwise_sortedSet _) (pairwise_sortedSet _)
    intro x
    rw [mem_sortedSet, mem_sortedSet]
    unfold Frame.getLocVectorized
    simp only [List.mem_filter, List.mem_map]
    grind
  unfold Frame.createSubspans Frame.locateSubspans
  simp only [e]

/-- Only the set of the functions given in `at` matters. -/
theorem Frame.partitionWithMarker_ext (f : Frame) (s : Span) {each : Freq} {ats ats' : List (Frame → Freq → Except Err (List Time))}
    (h : ∀ g, g ∈ ats ↔ g ∈ ats') {ss : List Span} (hs : f.partitionWithMarker s { each := each, ats := ats } = .ok ss) :
    f.partitionWithMarker s { each := each, ats := ats' } = .ok ss := by
  have hemp : ats'.isEmpty = ats.isEmpty := by
    cases ats with
    | nil =>
      cases ats' with
      | nil => rfl
      | cons y ys => exact absurd ((h y).2 (by simp)) (by simp)
    | cons y ys =>
      cases ats' with
      | nil => exact absurd ((h y).1 (by simp)) (by simp)
      | cons _ _ => rfl
  have key : ∀ a b, a < b → ∀ o, f.stencilFor { each := each, ats := ats } a b = .ok o →
      (o = none ∧ f.stencilFor { each := each, ats := ats' } a b = .ok none) ∨
      ∃ st st', o = some st ∧ f.stencilFor { each := each, ats := ats' } a b = .ok (some st') ∧ st'.leftBound = st.leftBound ∧
        st'.rightBound = st.rightBound ∧ st'.leftUndefined = st.leftUndefined ∧ st'.rightUndefined = st.rightUndefined ∧
        ∀ t, t ∈ st.points ↔ t ∈ st'.points := by
    intro a b hab o ho
    unfold Frame.stencilFor at ho ⊢
    simp only [hemp] at ho ⊢
    split at ho
    · rename_i he
      simp only [he, if_true]
      cases o with
      | none =>
        cases hf : Frame.new each a b with
        | error e => rw [hf] at ho; cases ho
        | ok fr => rw [hf] at ho; cases ho
      | some st => exact .inr ⟨st, st, rfl, ho, rfl, rfl, rfl, rfl, fun _ => Iff.rfl⟩
    · rename_i he
      simp only [he, if_false]
      cases hf : Frame.new each (a - getFreqDelta each) (b + getFreqDelta each) with
      | error e => rw [hf] at ho; cases ho
      | ok pi =>
        rw [hf] at ho
        simp only [bind, Except.bind] at ho ⊢
        cases hc : collectAts pi f.freq ats with
        | error e => rw [hc] at ho; cases ho
        | ok cand =>
          rw [hc] at ho
          obtain ⟨i1, i2⟩ := collectAts_ok_iff pi f.freq ats
          obtain ⟨j1, j2⟩ := collectAts_ok_iff pi f.freq ats'
          obtain ⟨cand', hc'⟩ := j2.2 (fun g hg => i2.1 ⟨cand, hc⟩ g ((h g).2 hg))
          rw [hc']
          have hm : ∀ t, t ∈ cand ↔ t ∈ cand' := by
            intro t
            rw [i1 _ hc, j1 _ hc']
            simp only [h]
          have hp : ∀ t, t ∈ sliceAtPoints (sortList cand) a b ↔ t ∈ sliceAtPoints (sortList cand') a b := by
            intro t
            rw [mem_sliceAtPoints_iff' (pairwise_sortList _) hab, mem_sliceAtPoints_iff' (pairwise_sortList _) hab]
            simp only [mem_sortList, hm]
          have e1 := sorted_head?_ext (pairwise_sliceAtPoints (a := a) (b := b) (pairwise_sortList cand))
            (pairwise_sliceAtPoints (pairwise_sortList cand')) hp
          have e2 := sorted_getLast?_ext (pairwise_sliceAtPoints (a := a) (b := b) (pairwise_sortList cand))
            (pairwise_sliceAtPoints (pairwise_sortList cand')) hp
          simp only [e1, e2] at ho
          cases hH : (sliceAtPoints (sortList cand') a b).head? with
          | none =>
            simp only [hH] at ho ⊢
            cases ho
            exact .inl ⟨rfl, rfl⟩
          | some a0 =>
            cases hL : (sliceAtPoints (sortList cand') a b).getLast? with
            | none =>
              simp only [hH, hL] at ho ⊢
              cases ho
              exact .inl ⟨rfl, rfl⟩
            | some a1 =>
              simp only [hH, hL] at ho ⊢
              cases ho
              exact .inr ⟨_, _, rfl, rfl, rfl, rfl, rfl, rfl, hp⟩
  unfold Frame.partitionWithMarker at hs ⊢
  simp only [bind, Except.bind, pure, Except.pure, throw, throwThe, MonadExceptOf.throw] at hs ⊢
  split at hs
  · cases hs
  · rename_i hgb
    simp only [hgb, Bool.false_eq_true, if_false]
    split at hs
    · cases hs
    · rename_i hk
      have hk' := Frame.checkSpan_ok_iff.1 hk
      cases hst : f.stencilFor { each := each, ats := ats } (f.unitStart s.first) (f.unitEnd s.last) with
      | error e => rw [hst] at hs; cases hs
      | ok o =>
        rw [hst] at hs
        rcases key _ _ (f.unitStart_lt_unitEnd hk'.2.1) _ hst with ⟨rfl, e⟩ | ⟨st, st', rfl, e, b1, b2, b3, b4, b5⟩
        · rw [e]; exact hs
        · rw [e]
          simp only [Frame.skipBefore, Frame.skipAfter, b1, b2, b3, b4, ← f.createSubspans_ext s b5] at hs ⊢
          exact hs


variable {L : Type}

/-- The second cycle runs over the same elements written out several times. -/
def Cycle.Over {α : Type} (k : Nat) (c c' : Cycle α) : Prop :=
  c'.saved = timesOver k c.saved ∧ ∃ j, c'.rest = c.rest ++ (List.replicate j c.saved).flatten

theorem Cycle.Over.start {α : Type} (k : Nat) (xs : List α) : Cycle.Over k (Cycle.start xs) (Cycle.start (timesOver k xs)) :=
  ⟨rfl, k, by simp [Cycle.start, timesOver, List.replicate_succ]⟩

theorem Cycle.Over.next {α : Type} {k : Nat} {c c' : Cycle α} (h : c.Over k c') :
    (c.next = none ∧ c'.next = none) ∨ ∃ x d d', c.next = some (x, d) ∧ c'.next = some (x, d') ∧ Cycle.Over k d d' := by
  obtain ⟨h1, j, h2⟩ := h
  rcases c with ⟨sv, rs⟩
  rcases c' with ⟨sv', rs'⟩
  simp only at h1 h2
  subst h1 h2
  cases rs with
  | cons x xs => exact .inr ⟨x, _, _, rfl, rfl, rfl, j, rfl⟩
  | nil =>
    cases sv with
    | nil =>
      left
      constructor
      · rfl
      · simp [Cycle.next, timesOver]
    | cons x xs =>
      right
      cases j with
      | zero => exact ⟨x, _, _, rfl, by simp [Cycle.next, timesOver, List.replicate_succ]; rfl, rfl, k, rfl⟩
      | succ j => exact ⟨x, _, _, rfl, by simp [Cycle.next, List.replicate_succ]; rfl, rfl, j, rfl⟩

theorem zipRun_over {k : Nat} : ∀ (ss : List Span) {c c' : Cycle (Step L)} (_ : c.Over k c') (st : TLState L), zipRun ss c st = zipRun ss c' st
  | [], _, _, _, _ => rfl
  | s :: ss, c, c', h, st => by
    unfold zipRun
    rcases h.next with ⟨e1, e2⟩ | ⟨x, d, d', e1, e2, h'⟩
    · rw [e1, e2]
    · rw [e1, e2]
      simp only
      cases x s st with
      | error e => rfl
      | ok st' => exact zipRun_over ss h' st'

theorem Src.take_over {k : Nat} (h : Heap L) : ∀ (n : Nat) {c c' : Cycle L} (_ : c.Over k c'),
    (Src.take n (.fresh c) h = none ∧ Src.take n (.fresh c') h = none) ∨
    ∃ xs d d', Src.take n (.fresh c) h = some (xs, .fresh d, h) ∧ Src.take n (.fresh c') h = some (xs, .fresh d', h) ∧ d.Over k d'
  | 0, c, c', hc => .inr ⟨[], c, c', rfl, rfl, hc⟩
  | n + 1, c, c', hc => by
    rcases hc.next with ⟨e1, e2⟩ | ⟨x, d, d', e1, e2, h'⟩
    · left; constructor <;> simp [Src.take, Src.next, e1, e2]
    · rcases Src.take_over h n h' with ⟨g1, g2⟩ | ⟨xs, b, b', g1, g2, g3⟩
      · left; constructor <;> simp [Src.take, Src.next, e1, e2, g1, g2]
      · exact .inr ⟨x :: xs, b, b', by simp [Src.take, Src.next, e1, g1], by simp [Src.take, Src.next, e2, g2], g3⟩

theorem applyPattern_over (k : Nat) (xs : List L) : applyPattern (.list xs) = applyPattern (.list (timesOver k xs)) := by
  funext s st
  have key : ∀ skip n, skiperatorTake (.list xs) skip n st.heap = skiperatorTake (.list (timesOver k xs)) skip n st.heap := by
    intro skip n
    unfold skiperatorTake
    simp only [Pattern.src]
    rcases Src.take_over st.heap skip (Cycle.Over.start k xs) with ⟨g1, g2⟩ | ⟨ys, d, d', g1, g2, g3⟩
    · rw [g1, g2]
    · rw [g1, g2]
      simp only
      rcases Src.take_over st.heap n g3 with ⟨g4, g5⟩ | ⟨zs, b, b', g4, g5, _⟩
      · rw [g4, g5]
      · rw [g4, g5]
  unfold applyPattern
  simp only [key]

/-- The same successful outcomes. -/
def Step.Alike (p q : Step L) : Prop := ∀ s st r, p s st = .ok r ↔ q s st = .ok r

inductive StepsAlike : List (Step L) → List (Step L) → Prop where
  | nil : StepsAlike [] []
  | cons {p q : Step L} {ps qs : List (Step L)} (h : p.Alike q) (hs : StepsAlike ps qs) : StepsAlike (p :: ps) (q :: qs)

theorem StepsAlike.refl : ∀ ps : List (Step L), StepsAlike ps ps
  | [] => .nil
  | _ :: ps => .cons (fun _ _ _ => Iff.rfl) (StepsAlike.refl ps)

theorem zipRun_alike : ∀ (ss : List Span) {c c' : Cycle (Step L)} (_ : StepsAlike c.saved c'.saved) (_ : StepsAlike c.rest c'.rest)
    (st r : TLState L), zipRun ss c st = .ok r ↔ zipRun ss c' st = .ok r
  | [], _, _, _, _, _, _ => Iff.rfl
  | s :: ss, ⟨sv, rs⟩, ⟨sv', rs'⟩, h1, h2, st, r => by
    have one : ∀ {p q : Step L} {ps qs : List (Step L)}, p.Alike q → StepsAlike ps qs →
        ((match p s st with
          | .error e => (.error e : Except Err (TLState L))
          | .ok st' => zipRun ss ⟨sv, ps⟩ st') = .ok r ↔
        (match q s st with
          | .error e => (.error e : Except Err (TLState L))
          | .ok st' => zipRun ss ⟨sv', qs⟩ st') = .ok r) := by
      intro p q ps qs hp hps
      cases e1 : p s st with
      | ok st1 =>
        rw [(hp s st st1).1 e1]
        exact zipRun_alike ss (c := ⟨sv, ps⟩) (c' := ⟨sv', qs⟩) h1 hps st1 r
      | error e =>
        cases e2 : q s st with
        | ok st2 => rw [(hp s st st2).2 e2] at e1; cases e1
        | error e' => simp
    unfold zipRun
    simp only at h1 h2
    cases h2 with
    | cons hp hps => exact one hp hps
    | nil =>
      cases h1 with
      | nil => exact Iff.rfl
      | cons hp hps => exact one hp hps

theorem Layout.runAll_append (f : Frame) : ∀ ls ms : List (Layout L), Layout.runAll f (ls ++ ms) = Layout.runAll f ls ++ Layout.runAll f ms
  | [], ms => by simp [Layout.runAll]
  | l :: ls, ms => by simp [Layout.runAll, Layout.runAll_append f ls ms]

theorem Layout.runAll_timesOver (f : Frame) (k : Nat) (ls : List (Layout L)) :
    Layout.runAll f (timesOver k ls) = timesOver k (Layout.runAll f ls) := by
  unfold timesOver
  induction k with
  | zero => simp
  | succ k ih => rw [List.replicate_succ, List.flatten_cons, Layout.runAll_append, ih, List.replicate_succ (n := k + 1), List.flatten_cons]

theorem StepsAlike.append {ps qs ps' qs' : List (Step L)} (h : StepsAlike ps qs) (h' : StepsAlike ps' qs') :
    StepsAlike (ps ++ ps') (qs ++ qs') := by
  induction h with
  | nil => exact h'
  | cons h _ ih => exact .cons h ih

theorem Cut.Same.ok {c c' : Cut} (h : c.Same c') (f : Frame) (s : Span) (ss : List Span) : f.cutSpan c s = .ok ss ↔ f.cutSpan c' s = .ok ss := by
  cases h with
  | marks h => simp only [Frame.cutSpan, Frame.partitionAtMarks, f.createSubspans_ext s h]
  | ats h =>
    simp only [Frame.cutSpan]
    exact ⟨f.partitionWithMarker_ext s h, f.partitionWithMarker_ext s (fun g => (h g).symm)⟩

theorem Layout.Same.run {l l' : Layout L} (h : l.Same l') (f : Frame) : Step.Alike (Layout.run f l) (Layout.run f l') := by
  induction h with
  | refl l => exact fun _ _ _ => Iff.rfl
  | symm _ ih => exact fun s st r => (ih s st r).symm
  | trans _ _ ih ih' => exact fun s st r => (ih s st r).trans (ih' s st r)
  | cut h es =>
    intro s st r
    simp only [Layout.run]
    have := h.ok f s
    constructor
    · intro hr
      split at hr
      · cases hr
      · rename_i spans e; rw [(this spans).1 e]; exact hr
    · intro hr
      split at hr
      · cases hr
      · rename_i spans e; rw [(this spans).2 e]; exact hr
  | cutRP h i =>
    intro s st r
    simp only [Layout.run]
    have := h.ok f s
    constructor
    · intro hr
      split at hr
      · cases hr
      · rename_i spans e; rw [(this spans).1 e]; exact hr
    · intro hr
      split at hr
      · cases hr
      · rename_i spans e; rw [(this spans).2 e]; exact hr
  | «structure» c es k =>
    intro s st r
    simp only [Layout.run, Layout.runAll_timesOver]
    split
    · exact Iff.rfl
    · rw [zipRun_over _ (Cycle.Over.start k _)]
  | pattern xs k =>
    intro s st r
    simp only [Layout.run]
    rw [applyPattern_over k xs]
  | element c pre post _ ih =>
    intro s st r
    simp only [Layout.run, Layout.runAll_append, Layout.runAll]
    split
    · exact Iff.rfl
    · have : StepsAlike _ _ := (StepsAlike.refl (Layout.runAll f pre)).append (.cons ih (StepsAlike.refl (Layout.runAll f post)))
      exact zipRun_alike _ this this st r

theorem Layout.Same.makeOrganizer {l l' : Layout L} (h : l.Same l') :
    (∀ o, TB.makeOrganizer l = .ok o → ∃ o', TB.makeOrganizer l' = .ok o' ∧ o.Same o') ∧
    (∀ o', TB.makeOrganizer l' = .ok o' → ∃ o, TB.makeOrganizer l = .ok o ∧ o.Same o') := by
  induction h with
  | refl l => exact ⟨fun o h => ⟨o, h, .refl _⟩, fun o h => ⟨o, h, .refl _⟩⟩
  | symm _ ih =>
    exact ⟨fun o h => let ⟨o', h1, h2⟩ := ih.2 o h; ⟨o', h1, .symm h2⟩, fun o h => let ⟨o', h1, h2⟩ := ih.1 o h; ⟨o', h1, .symm h2⟩⟩
  | trans _ _ ih ih' =>
    constructor
    · intro o h
      obtain ⟨o', h1, h2⟩ := ih.1 o h
      obtain ⟨o'', h3, h4⟩ := ih'.1 o' h1
      exact ⟨o'', h3, .trans h2 h4⟩
    · intro o h
      obtain ⟨o', h1, h2⟩ := ih'.2 o h
      obtain ⟨o'', h3, h4⟩ := ih.2 o' h1
      exact ⟨o'', h3, .trans h4 h2⟩
  | cut h es => exact ⟨fun o e => by cases e; exact ⟨_, rfl, .cut h es⟩, fun o e => by cases e; exact ⟨_, rfl, .cut h es⟩⟩
  | cutRP h i => exact ⟨fun o e => by cases e; exact ⟨_, rfl, .cutRP h i⟩, fun o e => by cases e; exact ⟨_, rfl, .cutRP h i⟩⟩
  | «structure» c es k => exact ⟨fun o e => by cases e; exact ⟨_, rfl, .structure c es k⟩, fun o e => by cases e; exact ⟨_, rfl, .structure c es k⟩⟩
  | pattern xs k =>
    exact ⟨fun o e => by cases e; exact ⟨_, rfl, .element _ [] [] (.pattern xs k)⟩, fun o e => by cases e; exact ⟨_, rfl, .element _ [] [] (.pattern xs k)⟩⟩
  | element c pre post h _ => exact ⟨fun o e => by cases e; exact ⟨_, rfl, .element c pre post h⟩, fun o e => by cases e; exact ⟨_, rfl, .element c pre post h⟩⟩

end TB
