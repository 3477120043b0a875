import Verif.Spec.Reading
import Verif.Lemmas.Layout3
import Verif.Lemmas.Anchor
import Verif.Lemmas.Continue
import Verif.Lemmas.Dividing
/-! The code which organizes a frame does what `Spec/Reading.lean` says. -/
namespace TB
variable {L : Type}

def Piece.span (p : Piece L) : Span := { first := p.first, last := p.last, skipLeft := 0, skipRight := 0 }

/-- The state of the arrays after organizing the units from `a` to `b`. -/
def Organized (st : TLState L) (a b : Int) (ps : List (Piece L)) : Prop :=
  Tiles a b (ps.map Piece.span) ∧ ∀ p ∈ ps, st.labels p.first = p.label ∧ st.mask p.first = true ∧
    ∀ i, p.first < i → i ≤ p.last → st.mask i = false

def Fresh (st : TLState L) (dl : L) (a b : Int) : Prop := ∀ i, a ≤ i → i ≤ b → st.labels i = dl ∧ st.mask i = true

/-- The outcome of a step is what is read; `R` relates the objects to what the user remembers of them. -/
def OutcomeOf {M : Type} (R : Heap L → M → Prop) (a b : Int) (x : Except Err (TLState L)) (y : Except Err (List (Piece L) × M)) : Prop :=
  match y with
  | .error e => x = .error e
  | .ok (ps, m') => ∃ st', x = .ok st' ∧ R st'.heap m' ∧ Organized st' a b ps

def ReadsOf {M : Type} (R : Heap L → M → Prop) (n : Nat) (dl : L) (step : Step L) (r : ReaderOf M L) : Prop :=
  ∀ (s : Span) (st : TLState L) (m : M), s.first ≤ s.last → 0 ≤ s.first ∧ s.last < n → R st.heap m → Fresh st dl s.first s.last →
    OutcomeOf R s.first s.last (step s st) (r s m)

abbrev Outcome (a b : Int) (x : Except Err (TLState L)) (y : Except Err (List (Piece L) × Memory L)) : Prop :=
  OutcomeOf Heap.Shows a b x y

abbrev Reads (n : Nat) (dl : L) (step : Step L) (r : Reader L) : Prop := ReadsOf Heap.Shows n dl step r

theorem Tiles.append {a b c : Int} {xs ys : List Span} (h : Tiles a b xs) (h' : Tiles (b + 1) c ys) : Tiles a c (xs ++ ys) := by
  induction xs generalizing a with
  | nil => exact h.elim
  | cons s rest ih =>
    cases rest with
    | nil =>
      obtain ⟨h1, h2, h3⟩ := h
      cases ys with
      | nil => exact h'.elim
      | cons y ys =>
        simp only [List.cons_append, List.nil_append]
        exact ⟨h1, by omega, by rw [h2]; exact h'⟩
    | cons t rest =>
      obtain ⟨h1, h2, h3⟩ := h
      exact ⟨h1, h2, ih h3⟩

theorem tiles_units (dl : L) (xs : List L) : ∀ (n : Nat) (a : Int) (p : Nat),
    Tiles a (a + n) (((List.range (n + 1)).map
      (fun (i : Nat) => ({ first := a + i, last := a + i, label := (cyclic xs (p + i)).getD dl } : Piece L))).map Piece.span) := by
  intro n
  induction n with
  | zero => intro a p; simp [Tiles, Piece.span]
  | succ n ih =>
    intro a p
    have h := ih (a + 1) p
    rw [List.range_succ_eq_map, List.map_cons, List.map_cons, List.map_map, List.map_map]
    rw [List.map_map] at h
    have e : ((List.range (n + 1)).map ((Piece.span ∘ (fun (i : Nat) => ({ first := a + i, last := a + i, label := (cyclic xs (p + i)).getD dl } : Piece L))) ∘ Nat.succ)) =
        (List.range (n + 1)).map (Piece.span ∘ (fun (i : Nat) => ({ first := a + 1 + i, last := a + 1 + i, label := (cyclic xs (p + i)).getD dl } : Piece L))) := by
      apply List.map_congr_left
      intro i hi
      simp [Piece.span]; omega
    have hb : a + ((n + 1 : Nat) : Int) = a + 1 + n := by omega
    rw [e, hb]
    cases hl : (List.range (n + 1)).map (Piece.span ∘ (fun (i : Nat) => ({ first := a + 1 + i, last := a + 1 + i, label := (cyclic xs (p + i)).getD dl } : Piece L))) with
    | nil => simp at hl
    | cons t rest =>
      rw [hl] at h
      refine ⟨by simp [Piece.span], by simp [Piece.span], ?_⟩
      simpa [Piece.span] using h

theorem organized_units {st : TLState L} {s : Span} {dl : L} {xs : List L} {p : Nat} (hs : s.first ≤ s.last)
    (hl : ∀ i, s.first ≤ i → i ≤ s.last → st.labels i = (cyclic xs (p + (i - s.first).toNat)).getD dl)
    (hm : ∀ i, s.first ≤ i → i ≤ s.last → st.mask i = true) : Organized st s.first s.last (unitPieces dl xs p s) := by
  constructor
  · have h := tiles_units dl xs (s.last - s.first).toNat s.first p
    have e1 : (s.last - s.first).toNat + 1 = (s.last + 1 - s.first).toNat := by omega
    have e2 : s.first + ((s.last - s.first).toNat : Int) = s.last := by omega
    rw [e1, e2] at h
    exact h
  · intro q hq
    unfold unitPieces at hq
    rw [List.mem_map] at hq
    obtain ⟨i, hi, rfl⟩ := hq
    rw [List.mem_range] at hi
    refine ⟨?_, hm _ (by simp only; omega) (by simp only; omega), ?_⟩
    · simp only
      rw [hl _ (by omega) (by omega)]
      congr 2; omega
    · intro j h1 h2; simp only at h1 h2; omega

theorem cyclic_nil (p : Nat) : cyclic ([] : List L) p = none := by simp [cyclic]

theorem organized_fresh {st : TLState L} {s : Span} {dl : L} (hs : s.first ≤ s.last) (hf : Fresh st dl s.first s.last) (p : Nat) :
    Organized st s.first s.last (unitPieces dl [] p s) :=
  organized_units hs (fun i h1 h2 => by rw [cyclic_nil]; exact (hf i h1 h2).1) (fun i h1 h2 => (hf i h1 h2).2)

theorem Src.take_empty {id : Nat} {h : Heap L} (hs : (h id).saved = []) (hr : (h id).rest = []) {n : Nat} (hn : 0 < n) :
    Src.take n (.shared id) h = none := by
  cases n with
  | zero => omega
  | succ n => simp [Src.take, Src.next, Cycle.next, hs, hr]

theorem applyPattern_rp_empty {id : Nat} {s : Span} {st : TLState L} (hs : 0 ≤ s.skipLeft) (hle : s.first ≤ s.last)
    (h1 : (st.heap id).saved = []) (h2 : (st.heap id).rest = []) : applyPattern (.rp id) s st = .ok st := by
  unfold applyPattern skiperatorTake
  rw [if_neg (by omega)]
  by_cases h0 : s.skipLeft.toNat = 0
  · simp only [Pattern.src, h0, Src.take]
    rw [Src.take_empty h1 h2 (by omega)]
  · simp only [Pattern.src, Src.take_empty h1 h2 (by omega : 0 < s.skipLeft.toNat)]

theorem applyPattern_rp {id : Nat} {s : Span} {st : TLState L} {xs : List L} {p : Nat} (hs : 0 ≤ s.skipLeft)
    (hp : (st.heap id).HandedOut xs p) :
    ∃ st', applyPattern (.rp id) s st = .ok st' ∧ st'.mask = st.mask ∧
      (st'.heap id).HandedOut xs (p + s.skipLeft.toNat + (s.last + 1 - s.first).toNat) ∧ (∀ j, j ≠ id → st'.heap j = st.heap j) ∧
      ∀ i, s.first ≤ i → i ≤ s.last → some (st'.labels i) = cyclic xs (p + s.skipLeft.toNat + (i - s.first).toNat) := by
  unfold applyPattern skiperatorTake
  rw [if_neg (by omega)]
  obtain ⟨ys, h1, g1, g2, g3, g4, g5⟩ := Src.take_shared s.skipLeft.toNat hp
  obtain ⟨zs, h2, k1, k2, k3, k4, k5⟩ := Src.take_shared (s.last + 1 - s.first).toNat g4
  simp only [Pattern.src, g1, k1]
  refine ⟨_, rfl, rfl, k4, fun j hj => (k5 j hj).trans (g5 j hj), fun i i1 i2 => ?_⟩
  simp only
  rw [if_pos ⟨i1, i2⟩]
  have h3 := k3 (i - s.first).toNat (by omega)
  rw [List.getElem?_eq_getElem (by omega)] at h3 ⊢
  simp only [Option.getD_some]
  exact h3

theorem organized_compound {dl l : L} {s : Span} {st : TLState L} (hs : s.first ≤ s.last) (hf : Fresh st dl s.first s.last) :
    ∃ st', makeCompound l s st = .ok st' ∧ st'.heap = st.heap ∧
      Organized st' s.first s.last [{ first := s.first, last := s.last, label := l }] := by
  refine ⟨_, rfl, rfl, ⟨?_, ?_⟩⟩
  · simp [Tiles, Piece.span, hs]
  · intro p hp
    simp only [List.mem_singleton] at hp
    subst hp
    refine ⟨by simp, ?_, ?_⟩
    · simp only
      rw [if_neg (by omega)]
      exact (hf _ (by omega) hs).2
    · intro i h1 h2
      simp only
      rw [if_pos (by simp only at h1 h2; omega)]

theorem reads_label (n : Nat) (dl l : L) : Reads n dl (makeCompound l) (fun s m => .ok ([{ first := s.first, last := s.last, label := l }], m)) := by
  intro s st m hs hb hm hf
  obtain ⟨st', e1, e2, e3⟩ := organized_compound (l := l) hs hf
  exact ⟨st', e1, by rw [e2]; exact hm, e3⟩

theorem reads_list (n : Nat) (dl : L) (xs : List L) : Reads n dl (applyPattern (.list xs)) (fun s m =>
    if s.skipLeft < 0 then .error .outOfBounds else .ok (unitPieces dl xs s.skipLeft.toNat s, m)) := by
  intro s st m hs hb hm hf
  unfold OutcomeOf
  by_cases hk : s.skipLeft < 0
  · simp only [if_pos hk]; exact applyPattern_negative hk
  · simp only [if_neg hk]
    by_cases hx : xs = []
    · subst hx
      exact ⟨st, applyPattern_nil (by omega) hs, hm, organized_fresh hs hf _⟩
    · obtain ⟨st', e1, e2, e3, e4, e5⟩ := applyPattern_list hx (s := s) (st := st) (by omega)
      refine ⟨st', e1, by rw [e2]; exact hm, organized_units hs (fun i h1 h2 => ?_) (fun i h1 h2 => by rw [e3]; exact (hf i h1 h2).2)⟩
      have := e4 i h1 h2
      have e : (s.skipLeft + (i - s.first)).toNat = s.skipLeft.toNat + (i - s.first).toNat := by omega
      rw [e] at this
      rw [← this]; rfl

theorem Heap.Shows.draw {h h' : Heap L} {m : Memory L} (hm : h.Shows m) {id n : Nat}
    (h1 : (h' id).Shows ((m id).1, (m id).2 + n)) (h2 : ∀ j, j ≠ id → h' j = h j) : h'.Shows (m.draw id n) := by
  intro j
  unfold Memory.draw
  split
  · rename_i e; subst e; exact h1
  · rename_i e; rw [h2 j e]; exact hm j

theorem reads_rp (n : Nat) (dl : L) (id : Nat) : Reads n dl (applyPattern (.rp id)) (fun s m =>
    if s.skipLeft < 0 then .error .outOfBounds
    else .ok (unitPieces dl (m id).1 ((m id).2 + s.skipLeft.toNat) s, m.draw id (s.skipLeft.toNat + (s.last + 1 - s.first).toNat))) := by
  intro s st m hs hb hm hf
  unfold OutcomeOf
  by_cases hk : s.skipLeft < 0
  · simp only [if_pos hk]; exact applyPattern_negative hk
  · simp only [if_neg hk]
    rcases hm id with ⟨e1, e2, e3⟩ | hp
    · refine ⟨st, applyPattern_rp_empty (by omega) hs e2 e3, hm.draw (.inl ⟨e1, e2, e3⟩) (fun _ _ => rfl), ?_⟩
      rw [e1]; exact organized_fresh hs hf _
    · obtain ⟨st', g1, g2, g3, g4, g5⟩ := applyPattern_rp (s := s) (by omega) hp
      refine ⟨st', g1, hm.draw (.inr (by rw [← Nat.add_assoc]; exact g3)) g4, organized_units hs (fun i h1 h2 => ?_)
        (fun i h1 h2 => by rw [g2]; exact (hf i h1 h2).2)⟩
      rw [← g5 i h1 h2]; rfl

/-- Pieces of neighbouring ranges put together. -/
theorem Organized.append {st st1 : TLState L} {a b c : Int} {ps qs : List (Piece L)} (h : Organized st1 a b ps) (h' : Organized st (b + 1) c qs)
    (hsame : ∀ i, i ≤ b → st.labels i = st1.labels i ∧ st.mask i = st1.mask i) : Organized st a c (ps ++ qs) := by
  refine ⟨by rw [List.map_append]; exact h.1.append h'.1, fun p hp => ?_⟩
  rcases List.mem_append.1 hp with hp | hp
  · obtain ⟨e1, e2, e3⟩ := h.2 p hp
    have hb := h.1.mem (List.mem_map_of_mem hp)
    simp only [Piece.span] at hb
    exact ⟨by rw [(hsame _ (by omega)).1]; exact e1, by rw [(hsame _ (by omega)).2]; exact e2,
      fun i i1 i2 => by rw [(hsame _ (by omega)).2]; exact e3 i i1 i2⟩
  · exact h'.2 p hp

/-- The loop over the spans of an organizer. -/
theorem zipRun_readsOf {M : Type} {R : Heap L → M → Prop} {n : Nat} {dl : L} {steps : List (Step L)} {rs : List (ReaderOf M L)} (hlen : steps.length = rs.length)
    (hloc : ∀ p ∈ steps, Step.Local p)
    (hr : ∀ (i : Nat) (p : Step L) (r : ReaderOf M L), steps[i]? = some p → rs[i]? = some r → ReadsOf R n dl p r) :
    ∀ (ss : List Span) {a b : Int} {c : Cycle (Step L)} {q : Nat} {st : TLState L} {m : M}, c.HandedOut steps q → Tiles a b ss → 0 ≤ a ∧ b < n →
      R st.heap m → Fresh st dl a b → OutcomeOf R a b (zipRun ss c st) (readInTurns rs q ss m) := by
  intro ss
  induction ss with
  | nil => intro a b c q st m _ ht; exact ht.elim
  | cons s ss ih =>
    intro a b c q st m hc ht hb hm hf
    obtain ⟨step, c', hn, hcy, hc'⟩ := hc.next
    have hlt : q % steps.length < steps.length := Nat.mod_lt _ (List.length_pos_iff.2 hc.1)
    obtain ⟨r, hrd⟩ : ∃ r, cyclic rs q = some r := by
      unfold cyclic
      rw [List.getElem?_eq_getElem (by rw [← hlen]; exact hlt)]; exact ⟨_, rfl⟩
    have hstep : ReadsOf R n dl step r := by
      unfold cyclic at hcy hrd
      rw [← hlen] at hrd
      exact hr _ _ _ hcy hrd
    have hsl : Step.Local step := hloc _ (by unfold cyclic at hcy; exact List.mem_of_getElem? hcy)
    have hhead := ht.head
    have h1 := hstep s st m hhead.2.1 (by omega) hm (fun i i1 i2 => hf i (by omega) (by omega))
    unfold readInTurns zipRun
    rw [hn, hrd]
    simp only
    unfold OutcomeOf at h1
    cases he : r s m with
    | error e =>
      rw [he] at h1
      simp only at h1 ⊢
      rw [h1]
      rfl
    | ok x =>
      obtain ⟨ps, m1⟩ := x
      rw [he] at h1
      obtain ⟨st1, e1, e2, e3⟩ := h1
      rw [e1]
      simp only
      have hl1 := (hsl _ _ _ hhead.2.1 e1).1
      rcases ht.tail with ⟨rfl, hb'⟩ | htl
      · simp only [zipRun, readInTurns, List.append_nil]
        exact ⟨st1, rfl, e2, by rw [← hb', ← hhead.1]; exact e3⟩
      · have h2 := ih hc' htl (by omega) e2 (fun i i1 i2 => by
          have := hl1 i (.inr (by omega))
          rw [this.1, this.2]; exact hf i (by omega) i2)
        unfold OutcomeOf at h2
        cases he2 : readInTurns rs (q + 1) ss m1 with
        | error e => rw [he2] at h2; exact h2
        | ok y =>
          obtain ⟨qs, m2⟩ := y
          rw [he2] at h2
          obtain ⟨st2, g1, g2, g3⟩ := h2
          have hl2 := zipRun_local htl (fun p hp => hloc p (by rw [← hc'.2.1]; exact hp))
            (fun p hp => hloc p (by
              rcases hc'.2.2 with h | h
              · rw [h] at hp; exact List.mem_of_mem_drop hp
              · rw [h.1] at hp; simp at hp)) g1
          refine ⟨st2, g1, g2, ?_⟩
          rw [← hhead.1]
          exact e3.append g3 (fun i hi => hl2.1 i (.inl (by omega)))

theorem zipRunRP_empty (ss : List Span) {id : Nat} {st : TLState L} (h1 : (st.heap id).saved = []) (h2 : (st.heap id).rest = []) :
    zipRunRP ss id st = .ok st := by
  cases ss with
  | nil => rfl
  | cons s ss => simp [zipRunRP, Cycle.next, h1, h2]

theorem spanPieces_cons (dl : L) (xs : List L) (p : Nat) (s : Span) (ss : List Span) :
    spanPieces dl xs p (s :: ss) = { first := s.first, last := s.last, label := (cyclic xs p).getD dl } :: spanPieces dl xs (p + 1) ss := by
  unfold spanPieces
  rw [List.zipIdx_cons', List.map_cons, List.map_map]
  congr 1
  apply List.map_congr_left
  intro x _
  simp only [Function.comp, Prod.map]
  congr 3
  omega

theorem zipRunRP_reads {dl : L} {id : Nat} {xs : List L} : ∀ (ss : List Span) {a b : Int} {p : Nat} {st : TLState L} , Tiles a b ss →
    (st.heap id).HandedOut xs p → Fresh st dl a b →
    ∃ st', zipRunRP ss id st = .ok st' ∧ (st'.heap id).HandedOut xs (p + ss.length) ∧ (∀ j, j ≠ id → st'.heap j = st.heap j) ∧
      Organized st' a b (spanPieces dl xs p ss) := by
  intro ss
  induction ss with
  | nil => intro a b p st ht; exact ht.elim
  | cons s ss ih =>
    intro a b p st ht hp hf
    obtain ⟨x, c', hn, hcy, hc'⟩ := hp.next
    have hhead := ht.head
    have hf0 : Fresh { st with heap := st.heap.set id c' } dl s.first s.last := fun i i1 i2 => hf i (by omega) (by omega)
    obtain ⟨st1, e1, e2, e3⟩ := organized_compound (l := x) hhead.2.1 hf0
    have hl1 := (makeCompound_local x _ _ _ hhead.2.1 e1).1
    have h0 : (st1.heap id).HandedOut xs (p + 1) := by rw [e2]; simp only; rw [Heap.set_same]; exact hc'
    have h0' : ∀ j, j ≠ id → st1.heap j = st.heap j := fun j hj => by rw [e2]; simp only; rw [Heap.set_other _ _ hj]
    have hx : (cyclic xs p).getD dl = x := by rw [hcy]; rfl
    unfold zipRunRP
    rw [hn, spanPieces_cons, hx]
    simp only
    rw [e1]
    simp only
    rcases ht.tail with ⟨rfl, hb⟩ | htl
    · refine ⟨st1, rfl, h0, h0', ?_⟩
      rw [← hb, ← hhead.1]
      exact e3
    · obtain ⟨st2, g1, g2, g3, g4⟩ := ih htl h0 (fun i i1 i2 => by
        have := hl1 i (.inr (by omega))
        rw [this.1, this.2]; exact hf i (by omega) i2)
      have hl2 := zipRunRP_local htl g1
      refine ⟨st2, g1, ?_, fun j hj => (g3 j hj).trans (h0' j hj), ?_⟩
      · rw [List.length_cons]
        have e : p + (ss.length + 1) = p + 1 + ss.length := by omega
        rw [e]; exact g2
      · rw [← hhead.1]
        exact e3.append g4 (fun i hi => hl2.1 i (.inl (by omega)))

theorem Layout.length_readAll (f : Frame) (dl : L) (ls : List (Layout L)) : (Layout.readAll f dl ls).length = ls.length := by
  induction ls with
  | nil => simp [Layout.readAll]
  | cons l ls ih => simp [Layout.readAll, ih]

mutual
theorem Layout.run_reads (f : Frame) (dl : L) : ∀ l : Layout L, Reads f.n dl (Layout.run f l) (Layout.read f dl l)
  | .label l => by simp only [Layout.run, Layout.read]; exact reads_label _ dl l
  | .pattern (.list xs) => by simp only [Layout.run, Layout.read]; exact reads_list _ dl xs
  | .pattern (.rp id) => by simp only [Layout.run, Layout.read]; exact reads_rp _ dl id
  | .organizerRP cut id => by
    intro s st m hs hb hm hf
    simp only [Layout.run, Layout.read]
    rw [← Frame.cutSpan_eq cut hb.1 hs hb.2]
    cases hc : f.cutSpan cut s with
    | error e => rfl
    | ok ss =>
      have ht := (Frame.cutSpan_tiles hc).2.2
      rcases hm id with ⟨e1, e2, e3⟩ | hp
      · simp only [e1, List.isEmpty_nil, if_true]
        exact ⟨st, zipRunRP_empty ss e2 e3, hm, organized_fresh hs hf _⟩
      · have hne : (m id).1.isEmpty = false := by simpa using hp.1
        simp only [hne, Bool.false_eq_true, if_false]
        obtain ⟨st', g1, g2, g3, g4⟩ := zipRunRP_reads ss ht hp hf
        exact ⟨st', g1, hm.draw (.inr g2) g3, g4⟩
  | .organizer cut elems => by
    intro s st m hs hb hm hf
    simp only [Layout.run, Layout.read]
    rw [← Frame.cutSpan_eq cut hb.1 hs hb.2]
    cases hc : f.cutSpan cut s with
    | error e => rfl
    | ok ss =>
      have ht := (Frame.cutSpan_tiles hc).2.2
      cases elems with
      | nil =>
        simp only [Layout.runAll, List.isEmpty_nil, if_true]
        exact ⟨st, zipRun_nil, hm, organized_fresh hs hf _⟩
      | cons l ls =>
        simp only [List.isEmpty_cons, Bool.false_eq_true, if_false]
        have hall := Layout.runAll_reads f dl (l :: ls)
        refine zipRun_readsOf ?_ (Layout.runAll_local f _) hall ss (Cycle.handedOut_start ?_) ht hb hm hf
        · rw [Layout.length_runAll, Layout.length_readAll]
        · simp [Layout.runAll]
theorem Layout.runAll_reads (f : Frame) (dl : L) : ∀ (ls : List (Layout L)) (i : Nat) (p : Step L) (r : Reader L),
    (Layout.runAll f ls)[i]? = some p → (Layout.readAll f dl ls)[i]? = some r → Reads f.n dl p r
  | [] => by intro i p r h; simp [Layout.runAll] at h
  | l :: ls => by
    intro i p r h1 h2
    cases i with
    | zero =>
      simp only [Layout.runAll, Layout.readAll, List.getElem?_cons_zero, Option.some.injEq] at h1 h2
      subst h1; subst h2
      exact Layout.run_reads f dl l
    | succ i =>
      simp only [Layout.runAll, Layout.readAll, List.getElem?_cons_succ] at h1 h2
      exact Layout.runAll_reads f dl ls i p r h1 h2
end

end TB
