import Verif.Lemmas.Iterators2
/-! Iterators which do not end; iterators with enough labels; iterators used once. -/
namespace TB
variable {L : Type}

/-! ### Objects which do not end -/

/-- The object ends at once or never: a RememberingPattern or an `itertools.cycle`. -/
def Cycle.Lasting (c : Cycle L) : Prop := c.saved = [] → c.rest = []

def Heap.Lasting (h : Heap L) : Prop := ∀ id, (h id).Lasting

theorem Cycle.next_saved {c c' : Cycle L} {x : L} (h : c.next = some (x, c')) : c'.saved = c.saved := by
  unfold Cycle.next at h
  split at h
  · simp only [Option.some.injEq, Prod.mk.injEq] at h; rw [← h.2]
  · split at h
    · cases h
    · simp only [Option.some.injEq, Prod.mk.injEq] at h; rw [← h.2]

theorem Cycle.next_none {c : Cycle L} (h : c.next = none) : c.saved = [] := by
  unfold Cycle.next at h
  split at h
  · cases h
  · split at h
    · rename_i e; exact e
    · cases h

theorem Cycle.Lasting.saved {c c' : Cycle L} {x : L} (hc : c.Lasting) (h : c.next = some (x, c')) : c.saved ≠ [] := by
  intro e
  have := hc e
  simp [Cycle.next, e, this] at h

theorem Heap.Lasting.set {h : Heap L} (hh : h.Lasting) {i : Nat} {c' : Cycle L} {x : L} (hn : (h i).next = some (x, c')) : (h.set i c').Lasting := by
  intro j
  unfold Heap.set
  split
  · intro e
    have := (hh i).saved hn
    rw [Cycle.next_saved hn] at e
    exact absurd e this
  · exact hh j

/-- The next element: as long as nothing has been seen of an empty object. -/
theorem Wrap.next_lasting {h : Heap L} {i : Nat} {seen : List L} (hseen : (h i).saved = [] → seen = []) :
    Wrap.next (.passing i seen) h = ((h i).next).map (fun r => (r.1, .passing i (seen ++ [r.1]), h.set i r.2)) := by
  cases hn : (h i).next with
  | none =>
    simp only [Wrap.next, hn, hseen (Cycle.next_none hn)]
    rfl
  | some q => simp only [Wrap.next, hn]; rfl

theorem Wrap.take_lasting {i : Nat} : ∀ (n : Nat) {h : Heap L} {seen : List L}, h.Lasting → ((h i).saved = [] → seen = []) →
    Wrap.take n (.passing i seen) h = none ∧ Src.take n (.shared i) h = none ∨
    ∃ xs seen' h', Wrap.take n (.passing i seen) h = some (xs, .passing i seen', h') ∧ Src.take n (.shared i) h = some (xs, .shared i, h') ∧
      h'.Lasting ∧ ((h' i).saved = [] → seen' = [])
  | 0, h, seen, hh, hs => .inr ⟨[], seen, h, rfl, rfl, hh, hs⟩
  | n + 1, h, seen, hh, hs => by
    unfold Wrap.take Src.take
    rw [Wrap.next_lasting hs]
    cases hn : (h i).next with
    | none => simp [Src.next, hn]
    | some q =>
      obtain ⟨x, c'⟩ := q
      have hne : ((h.set i c') i).saved ≠ [] := by rw [Heap.set_same, Cycle.next_saved hn]; exact (hh i).saved hn
      simp only [Option.map_some, Src.next, hn]
      rcases Wrap.take_lasting n (i := i) (h := h.set i c') (seen := seen ++ [x]) (hh.set hn) (fun e => absurd e hne) with ⟨h1, h2⟩ | ⟨xs, seen', h', h1, h2, h3, h4⟩
      · left; rw [h1, h2]; exact ⟨rfl, rfl⟩
      · right; rw [h1, h2]; exact ⟨x :: xs, seen', h', rfl, rfl, h3, h4⟩

theorem skiperatorTakeIt_lasting (p : Pattern L) (skip n : Nat) {h : Heap L} (hh : h.Lasting) :
    skiperatorTakeIt p skip n h = skiperatorTake p skip n h ∧ ∀ xs h', skiperatorTake p skip n h = some (xs, h') → h'.Lasting := by
  cases p with
  | list xs =>
    refine ⟨skiperatorTakeIt_list xs skip n h, ?_⟩
    intro ys h' e
    have : ∀ (k : Nat) (c : Cycle L) (h : Heap L) xs s h', Src.take k (.fresh c) h = some (xs, s, h') → h' = h ∧ ∃ c', s = .fresh c' := by
      intro k
      induction k with
      | zero => intro c h xs s h' e; cases e; exact ⟨rfl, _, rfl⟩
      | succ k ih =>
        intro c h xs s h' e
        simp only [Src.take, Src.next] at e
        cases hn : c.next with
        | none => rw [hn] at e; cases e
        | some q =>
          rw [hn] at e
          simp only at e
          cases ht : Src.take k (.fresh q.2) h with
          | none => rw [ht] at e; cases e
          | some r =>
            rw [ht] at e
            cases e
            exact ih _ _ _ _ _ ht
    unfold skiperatorTake at e
    simp only [Pattern.src] at e
    split at e
    · cases e
    · rename_i a s h1 ht
      obtain ⟨e1, c1, e2⟩ := this _ _ _ _ _ _ ht
      subst e1; subst e2
      split at e
      · cases e
      · rename_i b s2 h2 ht2
        cases e
        rw [(this _ _ _ _ _ _ ht2).1]; exact hh
  | rp i =>
    unfold skiperatorTakeIt skiperatorTake
    simp only [Pattern.wrap, Pattern.src]
    rcases Wrap.take_lasting skip (i := i) (h := h) (seen := []) hh (fun _ => rfl) with ⟨h1, h2⟩ | ⟨xs, seen', h', h1, h2, h3, h4⟩
    · rw [h1, h2]; exact ⟨rfl, fun _ _ e => by cases e⟩
    · rw [h1, h2]
      simp only
      rcases Wrap.take_lasting n h3 h4 with ⟨g1, g2⟩ | ⟨ys, seen2, h2', g1, g2, g3, g4⟩
      · rw [g1, g2]; exact ⟨rfl, fun _ _ e => by cases e⟩
      · rw [g1, g2]; exact ⟨rfl, fun _ _ e => by cases e; exact g3⟩

/-- The two steps do the same on objects which do not end, and these stay so. -/
def Step.AgreesLasting (p q : Step L) : Prop :=
  ∀ s (st : TLState L), st.heap.Lasting → p s st = q s st ∧ ∀ st', q s st = .ok st' → st'.heap.Lasting

theorem applyPatternIt_lasting (p : Pattern L) : Step.AgreesLasting (applyPatternIt p) (applyPattern p) := by
  intro s st hh
  unfold applyPatternIt applyPattern
  obtain ⟨h1, h2⟩ := skiperatorTakeIt_lasting p s.skipLeft.toNat (s.last + 1 - s.first).toNat hh
  rw [h1]
  refine ⟨rfl, ?_⟩
  intro st' e
  split at e
  · cases e
  · split at e
    · cases e; exact hh
    · rename_i xs h' ht
      cases e
      exact h2 _ _ ht

theorem makeCompound_lasting (l : L) : Step.AgreesLasting (makeCompound l) (makeCompound l) := by
  intro s st hh
  refine ⟨rfl, fun st' e => ?_⟩
  cases e; exact hh

theorem zipRunIt_lasting {i : Nat} : ∀ (ss : List Span) {seen : List L} {st : TLState L}, st.heap.Lasting → ((st.heap i).saved = [] → seen = []) →
    zipRunIt ss (.passing i seen) st = zipRunRP ss i st ∧ ∀ st', zipRunRP ss i st = .ok st' → st'.heap.Lasting
  | [], seen, st, hh, hs => ⟨rfl, fun st' e => by cases e; exact hh⟩
  | s :: ss, seen, st, hh, hs => by
    unfold zipRunIt zipRunRP
    rw [Wrap.next_lasting hs]
    cases hn : (st.heap i).next with
    | none => exact ⟨rfl, fun st' e => by cases e; exact hh⟩
    | some q =>
      obtain ⟨x, c'⟩ := q
      have hne : ((st.heap.set i c') i).saved ≠ [] := by rw [Heap.set_same, Cycle.next_saved hn]; exact (hh i).saved hn
      simp only [Option.map_some, makeCompound]
      exact zipRunIt_lasting ss (hh.set hn) (fun e => absurd e hne)

/-- Corresponding steps agree. -/
inductive StepsAgree : List (Step L) → List (Step L) → Prop where
  | nil : StepsAgree [] []
  | cons {p q : Step L} {ps qs : List (Step L)} (h : p.AgreesLasting q) (hs : StepsAgree ps qs) : StepsAgree (p :: ps) (q :: qs)

theorem zipRun_agree : ∀ (ss : List Span) {c d : Cycle (Step L)} {st : TLState L}, StepsAgree c.saved d.saved → StepsAgree c.rest d.rest → st.heap.Lasting →
    zipRun ss c st = zipRun ss d st ∧ ∀ st', zipRun ss d st = .ok st' → st'.heap.Lasting
  | [], c, d, st, _, _, hh => ⟨rfl, fun st' e => by cases e; exact hh⟩
  | s :: ss, c, d, st, hs, hr, hh => by
    have hnext : (c.next = none ∧ d.next = none) ∨ ∃ p c' q d', c.next = some (p, c') ∧ d.next = some (q, d') ∧ Step.AgreesLasting p q ∧
        StepsAgree c'.saved d'.saved ∧ StepsAgree c'.rest d'.rest := by
      unfold Cycle.next
      obtain ⟨cs, cr⟩ := c
      obtain ⟨ds, dr⟩ := d
      simp only at hs hr ⊢
      cases hr with
      | cons h1 h2 => exact .inr ⟨_, _, _, _, rfl, rfl, h1, hs, h2⟩
      | nil => cases hs with
        | nil => exact .inl ⟨rfl, rfl⟩
        | cons h1 h2 => exact .inr ⟨_, _, _, _, rfl, rfl, h1, .cons h1 h2, h2⟩
    unfold zipRun
    rcases hnext with ⟨h1, h2⟩ | ⟨p, c', q, d', h1, h2, h3, h4, h5⟩
    · rw [h1, h2]; exact ⟨rfl, fun st' e => by cases e; exact hh⟩
    · rw [h1, h2]
      simp only
      obtain ⟨g1, g2⟩ := h3 s st hh
      rw [g1]
      cases hq : q s st with
      | error e => exact ⟨rfl, fun st' e => by cases e⟩
      | ok st1 => exact zipRun_agree ss h4 h5 (g2 _ hq)

mutual
theorem Layout.runIt_lasting (f : Frame) : ∀ l : Layout L, Step.AgreesLasting (Layout.runIt f l) (Layout.run f l)
  | .label l => by simp only [Layout.runIt, Layout.run]; exact makeCompound_lasting l
  | .pattern p => by simp only [Layout.runIt, Layout.run]; exact applyPatternIt_lasting p
  | .organizerRP cut i => by
    intro s st hh
    simp only [Layout.runIt, Layout.run]
    cases hc : f.cutSpan cut s with
    | error e => exact ⟨rfl, fun st' e => by cases e⟩
    | ok ss => exact zipRunIt_lasting ss hh (fun _ => rfl)
  | .organizer cut elems => by
    intro s st hh
    simp only [Layout.runIt, Layout.run]
    cases hc : f.cutSpan cut s with
    | error e => exact ⟨rfl, fun st' e => by cases e⟩
    | ok ss => exact zipRun_agree ss (Layout.runItAll_lasting f elems) (Layout.runItAll_lasting f elems) hh
theorem Layout.runItAll_lasting (f : Frame) : ∀ ls : List (Layout L), StepsAgree (Layout.runItAll f ls) (Layout.runAll f ls)
  | [] => by simp only [Layout.runItAll, Layout.runAll]; exact .nil
  | l :: ls => by simp only [Layout.runItAll, Layout.runAll]; exact .cons (Layout.runIt_lasting f l) (Layout.runItAll_lasting f ls)
end

/-- With RememberingPatterns (and ordinary lists) only, the constructor is the one of `Model/Timeboard.lean`. -/
theorem Timeboard.newIt_lasting (a : Args L) {heap : Heap L} (hh : heap.Lasting) : Timeboard.newIt a heap = Timeboard.new a heap := by
  have key : ∀ f org r dl, Timeline.newIt f org r dl heap = Timeline.new f (some org) r dl heap := by
    intro f org r dl
    unfold Timeline.newIt Timeline.new
    simp only
    rw [(Layout.runIt_lasting f org _ { labels := fun _ => dl, mask := fun _ => true, heap := heap } hh).1]
    rfl
  unfold Timeboard.newIt Timeboard.new
  simp only [key]
  rfl

/-! ### An iterator with enough labels -/

def Supplies.with (m : Supplies L) (id : Nat) (sp : Supply L) : Supplies L := fun j => if j = id then sp else m j

theorem cyclic_drop {xs : List L} {n i : Nat} (h : n + i < xs.length) : cyclic (xs.drop n) i = cyclic xs (n + i) := by
  unfold cyclic
  rw [List.length_drop, Nat.mod_eq_of_lt (show i < xs.length - n by omega), Nat.mod_eq_of_lt h, List.getElem?_drop]

theorem unitPieces_congr {dl : L} {xs ys : List L} {p q : Nat} {s : Span} (h : ∀ i, i < (s.last + 1 - s.first).toNat → cyclic xs (p + i) = cyclic ys (q + i)) :
    unitPieces dl xs p s = unitPieces dl ys q s := by
  unfold unitPieces
  apply List.map_congr_left
  intro i hi
  rw [List.mem_range] at hi
  simp only [h i hi]

theorem spanPieces_congr {dl : L} {xs ys : List L} : ∀ {ss : List Span} {p q : Nat}, (∀ i, i < ss.length → cyclic xs (p + i) = cyclic ys (q + i)) →
    spanPieces dl xs p ss = spanPieces dl ys q ss
  | [], _, _, _ => rfl
  | s :: ss, p, q, h => by
    rw [spanPieces_cons, spanPieces_cons, spanPieces_congr (p := p + 1) (q := q + 1) (fun i hi => by
      have := h (i + 1) (by simp; omega)
      rwa [show p + (i + 1) = p + 1 + i by omega, show q + (i + 1) = q + 1 + i by omega] at this)]
    have := h 0 (by simp)
    simp only [Nat.add_zero] at this
    rw [this]

/-- What is read with an endless supply of the labels is read with an iterator of the labels, if there are enough of them. -/
def ReaderOf.Enough (N : Nat) (id : Nat) (xs : List L) (r : ReaderOf (Supplies L) L) : Prop :=
  ∀ (s : Span) (m m' : Supplies L) (n : Nat) (ps : List (Piece L)), s.Within N → m id = .endless xs n → r s m = .ok (ps, m') →
    ∃ k, m' id = .endless xs k ∧ n ≤ k ∧ (k ≤ xs.length → r s (m.with id (.once (xs.drop n))) = .ok (ps, m'.with id (.once (xs.drop k))))

theorem readInTurns_enough {N id : Nat} {xs : List L} {rs : List (ReaderOf (Supplies L) L)} (hrs : ∀ r ∈ rs, ReaderOf.Enough N id xs r) :
    ∀ (ss : List Span) (q : Nat) (m m' : Supplies L) (n : Nat) (ps : List (Piece L)), (∀ s ∈ ss, s.Within N) → m id = .endless xs n →
      readInTurns rs q ss m = .ok (ps, m') →
      ∃ k, m' id = .endless xs k ∧ n ≤ k ∧ (k ≤ xs.length →
        readInTurns rs q ss (m.with id (.once (xs.drop n))) = .ok (ps, m'.with id (.once (xs.drop k))))
  | [], q, m, m', n, ps, hss, hm, h => by
    simp only [readInTurns, Except.ok.injEq, Prod.mk.injEq] at h
    obtain ⟨rfl, rfl⟩ := h
    exact ⟨n, hm, Nat.le_refl _, fun _ => rfl⟩
  | s :: ss, q, m, m', n, ps, hss, hm, h => by
    unfold readInTurns at h ⊢
    cases hc : cyclic rs q with
    | none =>
      rw [hc] at h
      simp only [Except.ok.injEq, Prod.mk.injEq] at h
      obtain ⟨rfl, rfl⟩ := h
      exact ⟨n, hm, Nat.le_refl _, fun _ => rfl⟩
    | some r =>
      rw [hc] at h
      simp only at h ⊢
      cases hr : r s m with
      | error e => rw [hr] at h; cases h
      | ok x =>
        obtain ⟨qs, m1⟩ := x
        rw [hr] at h
        simp only at h
        cases hr2 : readInTurns rs (q + 1) ss m1 with
        | error e => rw [hr2] at h; cases h
        | ok y =>
          obtain ⟨qs2, m2⟩ := y
          rw [hr2] at h
          simp only [Except.ok.injEq, Prod.mk.injEq] at h
          obtain ⟨rfl, rfl⟩ := h
          obtain ⟨k1, e1, e2, e3⟩ := hrs r (List.mem_of_getElem? hc) s m m1 n qs (hss s (by simp)) hm hr
          obtain ⟨k2, g1, g2, g3⟩ := readInTurns_enough hrs ss (q + 1) m1 m2 k1 qs2 (fun x hx => hss x (List.mem_cons_of_mem _ hx)) e1 hr2
          refine ⟨k2, g1, by omega, fun hk => ?_⟩
          rw [e3 (by omega)]
          simp only
          rw [g3 hk]

theorem Supplies.with_same (m : Supplies L) (id : Nat) (sp : Supply L) : (m.with id sp) id = sp := by simp [Supplies.with]

theorem Supplies.with_other (m : Supplies L) {id j : Nat} (sp : Supply L) (h : j ≠ id) : (m.with id sp) j = m j := by simp [Supplies.with, h]

theorem Supplies.draw_with_same (m : Supplies L) (id n : Nat) (sp : Supply L) : (m.with id sp).draw id n = (m.draw id n).with id (sp.draw n) := by
  funext j
  simp only [Supplies.draw, Supplies.with]
  split <;> simp

theorem Supplies.draw_with_other (m : Supplies L) {id j : Nat} (n : Nat) (sp : Supply L) (h : j ≠ id) : (m.with id sp).draw j n = (m.draw j n).with id sp := by
  funext i
  simp only [Supplies.draw, Supplies.with]
  by_cases h1 : i = j
  · subst h1; simp [h]
  · simp [h1]

theorem pattern_enough {N : Nat} {dl : L} {id j : Nat} {xs : List L} : ReaderOf.Enough N id xs (fun s m =>
    if s.skipLeft < 0 then .error .outOfBounds
    else .ok (unitPieces dl (m j).labels ((m j).place + s.skipLeft.toNat) s, m.draw j (s.skipLeft.toNat + (s.last + 1 - s.first).toNat))) := by
  intro s m m' n ps hs hm h
  simp only at h ⊢
  split at h
  · cases h
  · rename_i hk
    simp only [Except.ok.injEq, Prod.mk.injEq] at h
    obtain ⟨rfl, rfl⟩ := h
    rw [if_neg hk]
    by_cases hj : j = id
    · subst hj
      refine ⟨n + (s.skipLeft.toNat + (s.last + 1 - s.first).toNat), by simp [Supplies.draw, hm, Supply.draw], by omega, fun hle => ?_⟩
      rw [Supplies.draw_with_same, Supplies.with_same, hm]
      simp only [Supply.labels, Supply.place, Supply.draw, List.drop_drop]
      congr 2
      apply unitPieces_congr
      intro i hi
      rw [cyclic_drop (by omega)]
      congr 1; omega
    · refine ⟨n, by simp [Supplies.draw, Ne.symm hj, hm], Nat.le_refl _, fun _ => ?_⟩
      rw [Supplies.draw_with_other _ _ _ hj, Supplies.with_other _ _ hj]

theorem organizerRP_enough {f : Frame} {dl : L} {id j : Nat} {xs : List L} {cut : Cut} : ReaderOf.Enough f.n id xs (fun s m => match f.cut s cut with
    | .error e => .error e
    | .ok ss => if (m j).labels.isEmpty then .ok (unitPieces dl [] 0 s, m)
      else .ok (spanPieces dl (m j).labels (m j).place ss, m.draw j ss.length)) := by
  intro s m m' n ps hs hm h
  simp only at h ⊢
  cases hc : f.cut s cut with
  | error e => rw [hc] at h; cases h
  | ok ss =>
    rw [hc] at h
    simp only at h ⊢
    by_cases hj : j = id
    · subst hj
      rw [Supplies.with_same]
      rw [show (m j).labels = xs by rw [hm]; rfl, show (m j).place = n by rw [hm]; rfl] at h
      rw [show (Supply.once (xs.drop n)).labels = xs.drop n from rfl, show (Supply.once (xs.drop n)).place = 0 from rfl]
      by_cases he : xs.isEmpty = true
      · rw [if_pos he] at h
        simp only [Except.ok.injEq, Prod.mk.injEq] at h
        obtain ⟨rfl, rfl⟩ := h
        have : (xs.drop n).isEmpty = true := by simp at he; subst he; simp
        exact ⟨n, hm, Nat.le_refl _, fun _ => by rw [if_pos this]⟩
      · rw [if_neg he] at h
        simp only [Except.ok.injEq, Prod.mk.injEq] at h
        obtain ⟨rfl, rfl⟩ := h
        refine ⟨n + ss.length, by simp [Supplies.draw, hm, Supply.draw], by omega, fun hle => ?_⟩
        have h0 : ss ≠ [] := by
          rw [← Frame.cutSpan_eq cut hs.1 hs.2.1 hs.2.2] at hc
          exact (Frame.cutSpan_tiles hc).2.2.ne_nil
        have hpos := List.length_pos_iff.2 h0
        have hne : (xs.drop n).isEmpty = false := by
          rw [List.isEmpty_eq_false_iff]
          intro e
          rw [List.drop_eq_nil_iff] at e
          omega
        rw [hne, Supplies.draw_with_same]
        simp only [Bool.false_eq_true, if_false, Supply.draw, List.drop_drop]
        congr 2
        apply spanPieces_congr
        intro i hi
        rw [Nat.zero_add, cyclic_drop (by omega)]
    · rw [Supplies.with_other _ _ hj]
      split at h
      · rename_i he
        simp only [Except.ok.injEq, Prod.mk.injEq] at h
        obtain ⟨rfl, rfl⟩ := h
        exact ⟨n, hm, Nat.le_refl _, fun _ => by rw [if_pos he]⟩
      · rename_i he
        simp only [Except.ok.injEq, Prod.mk.injEq] at h
        obtain ⟨rfl, rfl⟩ := h
        refine ⟨n, by simp [Supplies.draw, Ne.symm hj, hm], Nat.le_refl _, fun _ => ?_⟩
        rw [if_neg he, Supplies.draw_with_other _ _ _ hj]

mutual
theorem Layout.readIt_enough (f : Frame) (dl : L) (id : Nat) (xs : List L) : ∀ l : Layout L, ReaderOf.Enough f.n id xs (Layout.readIt f dl l)
  | .label l => by
    intro s m m' n ps hs hm h
    simp only [Layout.readIt, Except.ok.injEq, Prod.mk.injEq] at h ⊢
    obtain ⟨rfl, rfl⟩ := h
    exact ⟨n, hm, Nat.le_refl _, fun _ => ⟨rfl, rfl⟩⟩
  | .pattern (.list ys) => by
    intro s m m' n ps hs hm h
    simp only [Layout.readIt] at h ⊢
    split at h
    · cases h
    · rename_i hk
      simp only [Except.ok.injEq, Prod.mk.injEq] at h
      obtain ⟨rfl, rfl⟩ := h
      exact ⟨n, hm, Nat.le_refl _, fun _ => by rw [if_neg hk]⟩
  | .pattern (.rp j) => by simp only [Layout.readIt]; exact pattern_enough
  | .organizerRP cut j => by simp only [Layout.readIt]; exact organizerRP_enough
  | .organizer cut elems => by
    intro s m m' n ps hs hm h
    simp only [Layout.readIt] at h ⊢
    cases hc : f.cut s cut with
    | error e => rw [hc] at h; cases h
    | ok ss =>
      rw [hc] at h
      simp only at h ⊢
      split at h
      · rename_i he
        simp only [Except.ok.injEq, Prod.mk.injEq] at h
        obtain ⟨rfl, rfl⟩ := h
        exact ⟨n, hm, Nat.le_refl _, fun _ => by rw [if_pos he]⟩
      · rename_i he
        obtain ⟨k, h1, h2, h3⟩ := readInTurns_enough (Layout.readItAll_enough f dl id xs elems) ss 0 m m' n ps (Frame.cut_within hs hc).2 hm h
        exact ⟨k, h1, h2, fun hk => by rw [if_neg he]; exact h3 hk⟩
theorem Layout.readItAll_enough (f : Frame) (dl : L) (id : Nat) (xs : List L) : ∀ ls : List (Layout L), ∀ r ∈ Layout.readItAll f dl ls, ReaderOf.Enough f.n id xs r
  | [] => by simp [Layout.readItAll]
  | l :: ls => by
    intro r hr
    simp only [Layout.readItAll, List.mem_cons] at hr
    rcases hr with hr | hr
    · rw [hr]; exact Layout.readIt_enough f dl id xs l
    · exact Layout.readItAll_enough f dl id xs ls r hr
end

/-! ### Iterators used once -/

theorem readInTurns_once {f : Frame} {dl : L} {ids : List Nat} {xs : Nat → List L} (hnd : ids.Nodup) : ∀ (ss : List Span) (q : Nat) (m : Supplies L) (m0 : Supplies L),
    q + ss.length ≤ ids.length → (∀ k, q ≤ k → ∀ j, ids[k]? = some j → m j = .once (xs j)) →
    (readInTurns (Layout.readItAll f dl (ids.map (fun j => .pattern (.rp j)))) q ss m).map Prod.fst =
      (readInTurns (Layout.readItAll f dl (ids.map (fun j => .pattern (.list (xs j))))) q ss m0).map Prod.fst
  | [], q, m, m0, _, _ => rfl
  | s :: ss, q, m, m0, hq, hm => by
    simp only [List.length_cons] at hq
    have e1 : ∀ g : Nat → Layout L, cyclic (Layout.readItAll f dl (ids.map g)) q = (ids[q]?).map (fun j => Layout.readIt f dl (g j)) := by
      intro g
      have : ∀ ls : List (Layout L), Layout.readItAll f dl ls = ls.map (Layout.readIt f dl) := by
        intro ls
        induction ls with
        | nil => simp [Layout.readItAll]
        | cons l ls ih => simp [Layout.readItAll, ih]
      unfold cyclic
      rw [this, List.map_map, List.length_map, Nat.mod_eq_of_lt (by omega), List.getElem?_map]
      rfl
    have hlt : q < ids.length := by omega
    unfold readInTurns
    rw [e1, e1, List.getElem?_eq_getElem hlt]
    simp only [Option.map_some]
    have hmj := hm q (Nat.le_refl _) ids[q] (List.getElem?_eq_getElem hlt)
    simp only [Layout.readIt, hmj, Supply.labels, Supply.place, Nat.zero_add]
    by_cases hk : s.skipLeft < 0
    · simp [hk]
    · simp only [if_neg hk]
      have ih := readInTurns_once (f := f) (dl := dl) hnd ss (q + 1) (m.draw ids[q] (s.skipLeft.toNat + (s.last + 1 - s.first).toNat)) m0 (by omega) (by
        intro k hk1 j hj
        have hne : j ≠ ids[q] := by
          intro e
          have hkl : k < ids.length := by
            rcases Nat.lt_or_ge k ids.length with h | h
            · exact h
            · rw [List.getElem?_eq_none h] at hj; cases hj
          rw [List.getElem?_eq_getElem hkl] at hj
          injection hj with hj
          exact (List.pairwise_iff_getElem.1 hnd) q k hlt hkl (by omega) (by rw [hj, e])
        simp only [Supplies.draw, if_neg hne]
        exact hm k (by omega) j hj)
      revert ih
      generalize readInTurns (Layout.readItAll f dl (ids.map (fun j => .pattern (.rp j)))) (q + 1) ss _ = x
      generalize readInTurns (Layout.readItAll f dl (ids.map (fun j => .pattern (.list (xs j))))) (q + 1) ss _ = y
      intro ih
      cases x with
      | error e => cases y with
        | error e' => cases ih; rfl
        | ok y => cases ih
      | ok x => cases y with
        | error e' => cases ih
        | ok y =>
          simp only [Except.map, Except.ok.injEq] at ih ⊢
          rw [ih]

/-! ### The same pieces, the same timeboard -/

theorem Timeboard.newIt_same (a : Args L) {l l' : Layout L} {heap heap' : Heap L} {m m2 : Supplies L} (hm : heap.Supplies m) (hm2 : heap'.Supplies m2)
    {org org' : Layout L} (ho : makeOrganizer l = .ok org) (ho' : makeOrganizer l' = .ok org')
    (h : ∀ f, Frame.new a.freq a.start a.stop = .ok f →
      (Layout.readIt f a.defaultLabel org { first := 0, last := (f.n : Int) - 1 } m).map Prod.fst =
      (Layout.readIt f a.defaultLabel org' { first := 0, last := (f.n : Int) - 1 } m2).map Prod.fst) :
    (∃ e, Timeboard.newIt { a with layout := l } heap = .error e ∧ Timeboard.newIt { a with layout := l' } heap' = .error e) ∨
    ∃ tb h1 h2, Timeboard.newIt { a with layout := l } heap = .ok (tb, h1) ∧ Timeboard.newIt { a with layout := l' } heap' = .ok (tb, h2) := by
  cases hf : Frame.new a.freq a.start a.stop with
  | error e =>
    left
    unfold Timeboard.newIt
    simp only [ho, ho', hf]
    by_cases hw : a.worktimeSource ∉ ["duration", "labels"]
    · exact ⟨_, by rw [if_pos hw], by rw [if_pos hw]⟩
    · exact ⟨_, by rw [if_neg hw], by rw [if_neg hw]⟩
  | ok f =>
    have h1 := h f hf
    cases hr : Layout.readIt f a.defaultLabel org { first := 0, last := (f.n : Int) - 1 } m with
    | error e =>
      rw [hr] at h1
      cases hr2 : Layout.readIt f a.defaultLabel org' { first := 0, last := (f.n : Int) - 1 } m2 with
      | ok y => rw [hr2] at h1; cases h1
      | error e2 =>
        rw [hr2] at h1
        cases h1
        left
        have k1 := Timeboard.newIt_reads_organizer { a with layout := l } heap m hm org ho
        have k2 := Timeboard.newIt_reads_organizer { a with layout := l' } heap' m2 hm2 org' ho'
        unfold Args.readLayoutIt at k1 k2
        rw [Args.frame_eq] at k1 k2
        simp only [hf, hr, hr2] at k1 k2
        by_cases hw : a.worktimeSource ≠ "duration" ∧ a.worktimeSource ≠ "labels"
        · rw [if_pos hw] at k1 k2; exact ⟨_, k1, k2⟩
        · rw [if_neg hw] at k1 k2; exact ⟨_, k1, k2⟩
    | ok x =>
      rw [hr] at h1
      obtain ⟨ps, m'⟩ := x
      cases hr2 : Layout.readIt f a.defaultLabel org' { first := 0, last := (f.n : Int) - 1 } m2 with
      | error e => rw [hr2] at h1; cases h1
      | ok y =>
        rw [hr2] at h1
        obtain ⟨ps2, m2'⟩ := y
        cases h1
        obtain ⟨_, h1, _, k1⟩ := Timeboard.newIt_plain { a with layout := l } heap m hm ho hf hr
        obtain ⟨_, h2, _, k2⟩ := Timeboard.newIt_plain { a with layout := l' } heap' m2 hm2 ho' hf hr2
        have k1 := k1 _ _ heap_shows_empty
        have k2 := k2 _ _ heap_shows_empty
        simp only at k1 k2
        rcases k1 with ⟨e, e1, e2⟩ | ⟨tb, e1, e2⟩
        · rcases k2 with ⟨e', g1, g2⟩ | ⟨tb', g1, g2⟩
          · rw [e2] at g2; cases g2; exact .inl ⟨_, e1, g1⟩
          · rw [e2] at g2; cases g2
        · rcases k2 with ⟨e', g1, g2⟩ | ⟨tb', g1, g2⟩
          · rw [e2] at g2; cases g2
          · rw [e2] at g2; cases g2; exact .inr ⟨_, _, _, e1, g1⟩

theorem Heap.Shows.lasting {h : Heap L} {m : Memory L} (hm : h.Shows m) : h.Lasting := by
  intro id e
  rcases hm id with h1 | h1
  · exact h1.2.2
  · exact absurd (h1.2.1.symm.trans e) h1.1

theorem Heap.Shows.supplies {h : Heap L} {m : Memory L} (hm : h.Shows m) : h.Supplies (fun id => .endless (m id).1 (m id).2) := fun id => hm id

theorem Heap.Supplies.with {h : Heap L} {m : TB.Supplies L} (hm : h.Supplies m) (id : Nat) (xs : List L) :
    (h.set id (Cycle.once xs)).Supplies (m.with id (.once xs)) := by
  intro j
  by_cases hj : j = id
  · subst hj; rw [Heap.set_same, Supplies.with_same]; rfl
  · rw [Heap.set_other _ _ hj, Supplies.with_other _ _ hj]; exact hm j

end TB
