import Verif.Spec.Iterators
import Verif.Lemmas.Reading2
/-! The code which organizes a frame with iterators does what `Spec/Iterators.lean` says. -/
namespace TB
variable {L : Type}

/-! ### Drawing from an iterator -/

/-- The cycle made of the iterator `id`, which was as `sp` tells, after `k` elements have been drawn. -/
def Wrap.After (sp : Supply L) (id k : Nat) (w : Wrap L) (h : Heap L) : Prop :=
  match sp with
  | .endless xs n => (∃ seen, w = .passing id seen) ∧ (h id).HandedOut xs (n + k)
  | .once xs => (k ≤ xs.length ∧ w = .passing id (xs.take k) ∧ h id = Cycle.once (xs.drop k)) ∨
      (xs.length < k ∧ h id = Cycle.once [] ∧ ∃ c, w = .repeating c ∧ c.HandedOut xs k)

theorem Wrap.After.supplies {sp : Supply L} {id k : Nat} {w : Wrap L} {h : Heap L} (ha : w.After sp id k h) :
    (h id).Supplies (sp.draw k) := by
  cases sp with
  | endless xs n => exact .inr ha.2
  | once xs =>
    rcases ha with ⟨_, _, h2⟩ | ⟨h1, h2, _⟩
    · exact h2
    · simp only [Supply.draw, Cycle.Supplies]
      rw [h2, List.drop_eq_nil_of_le (by omega)]

theorem Wrap.after_zero {sp : Supply L} {id : Nat} {h : Heap L} (hs : (h id).Supplies sp) (hne : sp.labels ≠ []) :
    Wrap.After sp id 0 (.passing id []) h := by
  cases sp with
  | endless xs n =>
    refine ⟨⟨_, rfl⟩, ?_⟩
    rcases hs with h1 | h1
    · exact absurd h1.1 hne
    · exact h1
  | once xs => exact .inl ⟨by omega, by simp, hs⟩

theorem Cycle.once_next_cons (x : L) (xs : List L) : (Cycle.once (x :: xs)).next = some (x, Cycle.once xs) := rfl
theorem Cycle.once_next_nil : (Cycle.once ([] : List L)).next = none := rfl

theorem Wrap.After.next {sp : Supply L} {id k : Nat} {w : Wrap L} {h : Heap L} (hne : sp.labels ≠ []) (ha : w.After sp id k h) :
    ∃ x w' h', w.next h = some (x, w', h') ∧ cyclic sp.labels (sp.place + k) = some x ∧ w'.After sp id (k + 1) h' ∧
      ∀ j, j ≠ id → h' j = h j := by
  cases sp with
  | endless xs n =>
    obtain ⟨⟨seen, rfl⟩, hp⟩ := ha
    obtain ⟨x, c', hn, hcy, hc'⟩ := hp.next
    refine ⟨x, .passing id (seen ++ [x]), h.set id c', ?_, hcy, ⟨⟨_, rfl⟩, ?_⟩, fun j hj => Heap.set_other _ _ hj⟩
    · simp [Wrap.next, hn]
    · rw [Heap.set_same]; exact hc'
  | once xs =>
    simp only [Supply.labels] at hne
    have hpos : 0 < xs.length := List.length_pos_iff.2 hne
    simp only [Supply.labels, Supply.place, Nat.zero_add]
    rcases ha with ⟨h1, rfl, h2⟩ | ⟨h1, h2, c, rfl, hc⟩
    · rcases Nat.lt_or_ge k xs.length with hk | hk
      · have hd : xs.drop k = xs[k] :: xs.drop (k + 1) := List.drop_eq_getElem_cons hk
        refine ⟨xs[k], .passing id (xs.take k ++ [xs[k]]), h.set id (Cycle.once (xs.drop (k + 1))), ?_, ?_, .inl ⟨hk, ?_, Heap.set_same _ _ _⟩,
          fun j hj => Heap.set_other _ _ hj⟩
        · simp only [Wrap.next]; rw [h2, hd, Cycle.once_next_cons]
        · unfold cyclic; rw [Nat.mod_eq_of_lt hk]; exact List.getElem?_eq_getElem hk
        · rw [List.take_append_getElem hk]
      · have e : k = xs.length := by omega
        subst e
        obtain ⟨x, c', hn, hcy, hc'⟩ := (Cycle.handedOut_start hne).next
        refine ⟨x, .repeating c', h, ?_, ?_, .inr ⟨by omega, ?_, c', rfl, ?_⟩, fun _ _ => rfl⟩
        · simp only [Wrap.next]
          rw [h2, List.drop_length, Cycle.once_next_nil, List.take_length]
          simp only [hn]
        · rw [← hcy]; unfold cyclic; simp
        · rw [h2, List.drop_length]
        · obtain ⟨g1, g2, g3⟩ := hc'
          refine ⟨g1, g2, ?_⟩
          rw [show (xs.length + 1) % xs.length = (0 + 1) % xs.length by rw [Nat.add_mod_left]]
          exact g3
    · obtain ⟨x, c', hn, hcy, hc'⟩ := hc.next
      exact ⟨x, .repeating c', h, by simp [Wrap.next, hn], hcy, .inr ⟨by omega, h2, c', rfl, hc'⟩, fun _ _ => rfl⟩

theorem Wrap.After.take {sp : Supply L} {id : Nat} (hne : sp.labels ≠ []) : ∀ (n : Nat) {k : Nat} {w : Wrap L} {h : Heap L}, w.After sp id k h →
    ∃ xs w' h', Wrap.take n w h = some (xs, w', h') ∧ xs.length = n ∧ (∀ i, i < n → xs[i]? = cyclic sp.labels (sp.place + k + i)) ∧
      w'.After sp id (k + n) h' ∧ ∀ j, j ≠ id → h' j = h j
  | 0, k, w, h, ha => ⟨[], w, h, rfl, rfl, fun i hi => by omega, ha, fun _ _ => rfl⟩
  | n + 1, k, w, h, ha => by
    obtain ⟨x, w1, h1, e1, e2, e3, e4⟩ := ha.next hne
    obtain ⟨xs, w2, h2, g1, g2, g3, g4, g5⟩ := Wrap.After.take hne n e3
    refine ⟨x :: xs, w2, h2, ?_, by simp [g2], ?_, ?_, fun j hj => (g5 j hj).trans (e4 j hj)⟩
    · simp [Wrap.take, e1, g1]
    · intro i hi
      cases i with
      | zero => rw [List.getElem?_cons_zero, ← e2]; rfl
      | succ i =>
        rw [List.getElem?_cons_succ, g3 i (by omega)]
        congr 1; omega
    · have e : k + (n + 1) = k + 1 + n := by omega
      rw [e]; exact g4

theorem Supply.empty_next {sp : Supply L} {c : Cycle L} (hs : c.Supplies sp) (he : sp.labels = []) : c.next = none := by
  cases sp with
  | endless xs n =>
    rcases hs with ⟨_, h1, h2⟩ | h1
    · simp [Cycle.next, h1, h2]
    · exact absurd he h1.1
  | once xs =>
    simp only [Supply.labels] at he
    simp only [Cycle.Supplies] at hs
    rw [hs, he]; rfl

theorem Wrap.empty_next {sp : Supply L} {id : Nat} {h : Heap L} (hs : (h id).Supplies sp) (he : sp.labels = []) :
    Wrap.next (.passing id []) h = none := by
  simp only [Wrap.next, Supply.empty_next hs he]
  rfl

theorem Wrap.empty_take {sp : Supply L} {id : Nat} {h : Heap L} (hs : (h id).Supplies sp) (he : sp.labels = []) {n : Nat} (hn : 0 < n) :
    Wrap.take n (.passing id []) h = none := by
  cases n with
  | zero => omega
  | succ n => simp only [Wrap.take, Wrap.empty_next hs he]

theorem Supply.empty_draw {sp : Supply L} {c : Cycle L} (hs : c.Supplies sp) (he : sp.labels = []) (n : Nat) : c.Supplies (sp.draw n) := by
  cases sp with
  | endless xs k =>
    simp only [Supply.labels] at he
    rcases hs with ⟨h0, h1, h2⟩ | h1
    · exact .inl ⟨h0, h1, h2⟩
    · exact absurd he h1.1
  | once xs =>
    simp only [Supply.labels] at he
    subst he
    simpa [Supply.draw] using hs

theorem Heap.Supplies.draw {h h' : Heap L} {m : TB.Supplies L} (hm : h.Supplies m) {id n : Nat}
    (h1 : (h' id).Supplies ((m id).draw n)) (h2 : ∀ j, j ≠ id → h' j = h j) : h'.Supplies (m.draw id n) := by
  intro j
  unfold TB.Supplies.draw
  split
  · rename_i e; subst e; exact h1
  · rename_i e; rw [h2 j e]; exact hm j

/-! ### A pattern on a span -/

/-- An ordinary iterable is treated as in `Model/Layout.lean`. -/
theorem Wrap.take_repeating : ∀ (n : Nat) (c : Cycle L) (h : Heap L),
    Wrap.take n (.repeating c) h = (Src.take n (.fresh c) h).map (fun r => (r.1, (match r.2.1 with | .fresh c => .repeating c | .shared i => .passing i []), r.2.2)) ∧
      ∀ xs s h', Src.take n (.fresh c) h = some (xs, s, h') → ∃ c', s = .fresh c'
  | 0, c, h => by
    refine ⟨rfl, ?_⟩
    intro xs s h' e
    simp only [Src.take, Option.some.injEq, Prod.mk.injEq] at e
    exact ⟨c, e.2.1.symm⟩
  | n + 1, c, h => by
    simp only [Wrap.take, Src.take, Wrap.next, Src.next]
    cases hn : c.next with
    | none => simp
    | some q =>
      obtain ⟨x, c'⟩ := q
      obtain ⟨h1, h2⟩ := Wrap.take_repeating n c' h
      simp only
      rw [h1]
      cases ht : Src.take n (.fresh c') h with
      | none => simp
      | some r =>
        obtain ⟨xs, s, h'⟩ := r
        obtain ⟨c2, rfl⟩ := h2 _ _ _ ht
        simp

theorem skiperatorTakeIt_list (xs : List L) (skip n : Nat) (h : Heap L) : skiperatorTakeIt (.list xs) skip n h = skiperatorTake (.list xs) skip n h := by
  unfold skiperatorTakeIt skiperatorTake
  simp only [Pattern.wrap, Pattern.src]
  obtain ⟨h1, h2⟩ := Wrap.take_repeating skip (Cycle.start xs) h
  rw [h1]
  cases ht : Src.take skip (.fresh (Cycle.start xs)) h with
  | none => rfl
  | some r =>
    obtain ⟨ys, s, h'⟩ := r
    obtain ⟨c, rfl⟩ := h2 _ _ _ ht
    simp only [Option.map_some]
    rw [(Wrap.take_repeating n c h').1]
    cases Src.take n (.fresh c) h' with
    | none => rfl
    | some r => rfl

theorem applyPatternIt_list (xs : List L) : applyPatternIt (.list xs) = applyPattern (.list xs) := by
  funext s st
  unfold applyPatternIt applyPattern
  rw [skiperatorTakeIt_list]
  rfl

theorem applyPatternIt_negative {p : Pattern L} {s : Span} {st : TLState L} (h : s.skipLeft < 0) : applyPatternIt p s st = .error .outOfBounds := by
  unfold applyPatternIt; rw [if_pos h]

theorem applyPatternIt_empty {id : Nat} {s : Span} {st : TLState L} {sp : Supply L} (hs : 0 ≤ s.skipLeft) (hle : s.first ≤ s.last)
    (h1 : (st.heap id).Supplies sp) (h2 : sp.labels = []) : applyPatternIt (.rp id) s st = .ok st := by
  unfold applyPatternIt skiperatorTakeIt
  rw [if_neg (by omega)]
  by_cases h0 : s.skipLeft.toNat = 0
  · simp only [Pattern.wrap, h0, Wrap.take]
    rw [Wrap.empty_take h1 h2 (by omega)]
  · simp only [Pattern.wrap, Wrap.empty_take h1 h2 (by omega : 0 < s.skipLeft.toNat)]

theorem applyPatternIt_rp {id : Nat} {s : Span} {st : TLState L} {sp : Supply L} (hs : 0 ≤ s.skipLeft)
    (h1 : (st.heap id).Supplies sp) (hne : sp.labels ≠ []) :
    ∃ st', applyPatternIt (.rp id) s st = .ok st' ∧ st'.mask = st.mask ∧
      (st'.heap id).Supplies (sp.draw (s.skipLeft.toNat + (s.last + 1 - s.first).toNat)) ∧ (∀ j, j ≠ id → st'.heap j = st.heap j) ∧
      ∀ i, s.first ≤ i → i ≤ s.last → some (st'.labels i) = cyclic sp.labels (sp.place + s.skipLeft.toNat + (i - s.first).toNat) := by
  unfold applyPatternIt skiperatorTakeIt
  rw [if_neg (by omega)]
  obtain ⟨ys, w1, h1, g1, g2, g3, g4, g5⟩ := (Wrap.after_zero h1 hne).take hne s.skipLeft.toNat
  obtain ⟨zs, w2, h2, k1, k2, k3, k4, k5⟩ := g4.take hne (s.last + 1 - s.first).toNat
  simp only [Pattern.wrap, g1, k1]
  refine ⟨_, rfl, rfl, by have := k4.supplies; rwa [Nat.zero_add] at this, fun j hj => (k5 j hj).trans (g5 j hj), fun i i1 i2 => ?_⟩
  simp only
  rw [if_pos ⟨i1, i2⟩]
  have h3 := k3 (i - s.first).toNat (by omega)
  rw [List.getElem?_eq_getElem (by omega)] at h3 ⊢
  simp only [Option.getD_some]
  rw [h3]; congr 1; omega

/-! ### The readers -/

theorem reads_label_it (n : Nat) (dl l : L) :
    ReadsOf Heap.Supplies n dl (makeCompound l) (fun s m => .ok ([{ first := s.first, last := s.last, label := l }], m)) := by
  intro s st m hs hb hm hf
  obtain ⟨st', e1, e2, e3⟩ := organized_compound (l := l) hs hf
  exact ⟨st', e1, by rw [e2]; exact hm, e3⟩

theorem reads_list_it (n : Nat) (dl : L) (xs : List L) : ReadsOf Heap.Supplies n dl (applyPatternIt (.list xs)) (fun s m =>
    if s.skipLeft < 0 then .error .outOfBounds else .ok (unitPieces dl xs s.skipLeft.toNat s, m)) := by
  rw [applyPatternIt_list]
  intro s st m hs hb hm hf
  unfold OutcomeOf
  by_cases hk : s.skipLeft < 0
  · simp only [if_pos hk]; exact applyPattern_negative hk
  · simp only [if_neg hk]
    by_cases hx : xs = []
    · subst hx
      exact ⟨st, applyPattern_nil (by omega) hs, hm, organized_fresh hs hf _⟩
    · obtain ⟨st', e1, e2, e3, e4, e5⟩ := applyPattern_list hx (s := s) (st := st) (by omega)
      refine ⟨st', e1, by rw [e2]; exact hm, organized_units hs (fun i h1 h2 => ?_) (fun i h1 h2 => by rw [e3]; exact (hf i h1 h2).2)⟩
      have := e4 i h1 h2
      have e : (s.skipLeft + (i - s.first)).toNat = s.skipLeft.toNat + (i - s.first).toNat := by omega
      rw [e] at this
      rw [← this]; rfl

theorem reads_rp_it (n : Nat) (dl : L) (id : Nat) : ReadsOf Heap.Supplies n dl (applyPatternIt (.rp id)) (fun s m =>
    if s.skipLeft < 0 then .error .outOfBounds
    else .ok (unitPieces dl (m id).labels ((m id).place + s.skipLeft.toNat) s, m.draw id (s.skipLeft.toNat + (s.last + 1 - s.first).toNat))) := by
  intro s st m hs hb hm hf
  unfold OutcomeOf
  by_cases hk : s.skipLeft < 0
  · simp only [if_pos hk]; exact applyPatternIt_negative hk
  · simp only [if_neg hk]
    by_cases he : (m id).labels = []
    · refine ⟨st, applyPatternIt_empty (by omega) hs (hm id) he, hm.draw (Supply.empty_draw (hm id) he _) (fun _ _ => rfl), ?_⟩
      rw [he]; exact organized_fresh hs hf _
    · obtain ⟨st', g1, g2, g3, g4, g5⟩ := applyPatternIt_rp (s := s) (by omega) (hm id) he
      refine ⟨st', g1, hm.draw g3 g4, organized_units hs (fun i h1 h2 => ?_)
        (fun i h1 h2 => by rw [g2]; exact (hf i h1 h2).2)⟩
      rw [← g5 i h1 h2]; rfl

theorem zipRunIt_empty (ss : List Span) {id : Nat} {st : TLState L} {sp : Supply L} (hs : (st.heap id).Supplies sp) (he : sp.labels = []) :
    zipRunIt ss (.passing id []) st = .ok st := by
  cases ss with
  | nil => rfl
  | cons s ss => simp only [zipRunIt, Wrap.empty_next hs he]

theorem zipRunIt_local {ss : List Span} : ∀ {a b : Int} {w : Wrap L} {st st' : TLState L},
    Tiles a b ss → zipRunIt ss w st = .ok st' →
    (∀ i, (i < a ∨ b < i) → st'.labels i = st.labels i ∧ st'.mask i = st.mask i) ∧
    st'.mask a = st.mask a := by
  induction ss with
  | nil => intro a b w st st' ht; exact ht.elim
  | cons s ss ih =>
    intro a b w st st' ht h
    have hm := ht.mem (List.mem_cons_self : s ∈ s :: ss)
    have hf : s.first = a := by cases ss <;> exact ht.1
    unfold zipRunIt at h
    cases hn : w.next st.heap with
    | none => rw [hn] at h; simp at h; subst h; simp
    | some q =>
      obtain ⟨l, w', h'⟩ := q
      rw [hn] at h
      simp only at h
      cases he : makeCompound l s { st with heap := h' } with
      | error e => rw [he] at h; simp at h
      | ok st1 =>
        rw [he] at h
        simp only at h
        obtain ⟨h1, h2⟩ := makeCompound_local l s _ st1 hm.2.1 he
        cases ss with
        | nil =>
          simp [zipRunIt] at h; subst h
          refine ⟨fun i hi => h1 i (by omega), by rw [← hf]; exact h2⟩
        | cons t r =>
          obtain ⟨_, h4, h5⟩ := ht
          obtain ⟨h6, h7⟩ := ih h5 h
          have hb := h5.le
          refine ⟨fun i hi => ?_, ?_⟩
          · rw [(h6 i (by omega)).1, (h6 i (by omega)).2]; exact h1 i (by omega)
          · rw [(h6 a (by omega)).2, ← hf]; exact h2

theorem zipRunIt_reads {dl : L} {id : Nat} {sp : Supply L} (hne : sp.labels ≠ []) : ∀ (ss : List Span) {a b : Int} {k : Nat} {w : Wrap L}
    {st : TLState L}, Tiles a b ss → w.After sp id k st.heap → Fresh st dl a b →
    ∃ st', zipRunIt ss w st = .ok st' ∧ (st'.heap id).Supplies (sp.draw (k + ss.length)) ∧ (∀ j, j ≠ id → st'.heap j = st.heap j) ∧
      Organized st' a b (spanPieces dl sp.labels (sp.place + k) ss) := by
  intro ss
  induction ss with
  | nil => intro a b k w st ht; exact ht.elim
  | cons s ss ih =>
    intro a b k w st ht hp hf
    obtain ⟨x, w', h', hn, hcy, hc', hother⟩ := hp.next hne
    have hhead := ht.head
    have hf0 : Fresh { st with heap := h' } dl s.first s.last := fun i i1 i2 => hf i (by omega) (by omega)
    obtain ⟨st1, e1, e2, e3⟩ := organized_compound (l := x) hhead.2.1 hf0
    have hl1 := (makeCompound_local x _ _ _ hhead.2.1 e1).1
    have hx : (cyclic sp.labels (sp.place + k)).getD dl = x := by rw [hcy]; rfl
    unfold zipRunIt
    rw [hn, spanPieces_cons, hx]
    simp only
    rw [e1]
    simp only
    rcases ht.tail with ⟨rfl, hb⟩ | htl
    · refine ⟨st1, rfl, ?_, fun j hj => by rw [e2]; exact hother j hj, ?_⟩
      · rw [e2]; exact hc'.supplies
      · rw [← hb, ← hhead.1]
        exact e3
    · obtain ⟨st2, g1, g2, g3, g4⟩ := ih (k := k + 1) (w := w') (st := st1) htl (by rw [e2]; exact hc') (fun i i1 i2 => by
        have := hl1 i (.inr (by omega))
        rw [this.1, this.2]; exact hf i (by omega) i2)
      have hl2 := zipRunIt_local htl g1
      refine ⟨st2, g1, ?_, fun j hj => (g3 j hj).trans (by rw [e2]; exact hother j hj), ?_⟩
      · rw [List.length_cons]
        have e : k + (ss.length + 1) = k + 1 + ss.length := by omega
        rw [e]; exact g2
      · rw [← hhead.1]
        exact e3.append g4 (fun i hi => hl2.1 i (.inl (by omega)))

theorem applyPatternIt_local (p : Pattern L) : Step.Local (applyPatternIt p) := by
  intro s st st' hs h
  unfold applyPatternIt at h
  split at h
  · simp at h
  · split at h
    · simp at h; subst h; simp
    · simp at h; subst h
      refine ⟨fun i hi => ⟨?_, rfl⟩, rfl⟩
      simp only
      rw [if_neg (by omega)]

mutual
theorem Layout.runIt_local (f : Frame) : ∀ l : Layout L, Step.Local (Layout.runIt f l)
  | .organizer cut elems => by
    intro s st st' hs h
    simp only [Layout.runIt] at h
    cases hc : f.cutSpan cut s with
    | error e => rw [hc] at h; simp at h
    | ok ss =>
      rw [hc] at h
      exact zipRun_local (Frame.cutSpan_tiles hc).2.2 (Layout.runItAll_local f elems) (Layout.runItAll_local f elems) h
  | .organizerRP cut i => by
    intro s st st' hs h
    simp only [Layout.runIt] at h
    cases hc : f.cutSpan cut s with
    | error e => rw [hc] at h; simp at h
    | ok ss =>
      rw [hc] at h
      exact zipRunIt_local (Frame.cutSpan_tiles hc).2.2 h
  | .pattern p => by simp only [Layout.runIt]; exact applyPatternIt_local p
  | .label l => by simp only [Layout.runIt]; exact makeCompound_local l
theorem Layout.runItAll_local (f : Frame) : ∀ ls : List (Layout L), ∀ p ∈ Layout.runItAll f ls, Step.Local p
  | [] => by simp [Layout.runItAll]
  | l :: ls => by
    intro p hp
    simp only [Layout.runItAll, List.mem_cons] at hp
    rcases hp with hp | hp
    · rw [hp]; exact Layout.runIt_local f l
    · exact Layout.runItAll_local f ls p hp
end

theorem Layout.length_runItAll (f : Frame) (ls : List (Layout L)) : (Layout.runItAll f ls).length = ls.length := by
  induction ls with
  | nil => simp [Layout.runItAll]
  | cons l ls ih => simp [Layout.runItAll, ih]

theorem Layout.length_readItAll (f : Frame) (dl : L) (ls : List (Layout L)) : (Layout.readItAll f dl ls).length = ls.length := by
  induction ls with
  | nil => simp [Layout.readItAll]
  | cons l ls ih => simp [Layout.readItAll, ih]

mutual
theorem Layout.runIt_reads (f : Frame) (dl : L) : ∀ l : Layout L, ReadsOf Heap.Supplies f.n dl (Layout.runIt f l) (Layout.readIt f dl l)
  | .label l => by simp only [Layout.runIt, Layout.readIt]; exact reads_label_it _ dl l
  | .pattern (.list xs) => by simp only [Layout.runIt, Layout.readIt]; exact reads_list_it _ dl xs
  | .pattern (.rp id) => by simp only [Layout.runIt, Layout.readIt]; exact reads_rp_it _ dl id
  | .organizerRP cut id => by
    intro s st m hs hb hm hf
    simp only [Layout.runIt, Layout.readIt]
    rw [← Frame.cutSpan_eq cut hb.1 hs hb.2]
    cases hc : f.cutSpan cut s with
    | error e => rfl
    | ok ss =>
      have ht := (Frame.cutSpan_tiles hc).2.2
      by_cases he : (m id).labels = []
      · simp only [he, List.isEmpty_nil, if_true]
        exact ⟨st, zipRunIt_empty ss (hm id) he, hm, organized_fresh hs hf _⟩
      · have hne : (m id).labels.isEmpty = false := by simpa using he
        simp only [hne, Bool.false_eq_true, if_false]
        obtain ⟨st', g1, g2, g3, g4⟩ := zipRunIt_reads (dl := dl) he ss ht (Wrap.after_zero (hm id) he) hf
        rw [Nat.zero_add] at g2
        exact ⟨st', g1, hm.draw g2 g3, g4⟩
  | .organizer cut elems => by
    intro s st m hs hb hm hf
    simp only [Layout.runIt, Layout.readIt]
    rw [← Frame.cutSpan_eq cut hb.1 hs hb.2]
    cases hc : f.cutSpan cut s with
    | error e => rfl
    | ok ss =>
      have ht := (Frame.cutSpan_tiles hc).2.2
      cases elems with
      | nil =>
        simp only [Layout.runItAll, List.isEmpty_nil, if_true]
        exact ⟨st, zipRun_nil, hm, organized_fresh hs hf _⟩
      | cons l ls =>
        simp only [List.isEmpty_cons, Bool.false_eq_true, if_false]
        have hall := Layout.runItAll_reads f dl (l :: ls)
        refine zipRun_readsOf ?_ (Layout.runItAll_local f _) hall ss (Cycle.handedOut_start ?_) ht hb hm hf
        · rw [Layout.length_runItAll, Layout.length_readItAll]
        · simp [Layout.runItAll]
theorem Layout.runItAll_reads (f : Frame) (dl : L) : ∀ (ls : List (Layout L)) (i : Nat) (p : Step L) (r : ReaderOf (Supplies L) L),
    (Layout.runItAll f ls)[i]? = some p → (Layout.readItAll f dl ls)[i]? = some r → ReadsOf Heap.Supplies f.n dl p r
  | [] => by intro i p r h; simp [Layout.runItAll] at h
  | l :: ls => by
    intro i p r h1 h2
    cases i with
    | zero =>
      simp only [Layout.runItAll, Layout.readItAll, List.getElem?_cons_zero, Option.some.injEq] at h1 h2
      subst h1; subst h2
      exact Layout.runIt_reads f dl l
    | succ i =>
      simp only [Layout.runItAll, Layout.readItAll, List.getElem?_cons_succ] at h1 h2
      exact Layout.runItAll_reads f dl ls i p r h1 h2
end

end TB
