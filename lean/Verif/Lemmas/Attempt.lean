import Verif.Model.Attempt
import Verif.Spec.Attempt
import Verif.Lemmas.Layout2
import Verif.Lemmas.Amend
/-! Facts about attempted constructions. -/
namespace TB
variable {L : Type}

/-- The outcome of an attempt without the state in which it was given up. -/
def Try.step (t : Try L) : Step L := fun s st => match t s st with
  | (st', none) => .ok st'
  | (_, some e) => .error e

def Cycle.mapC {α β : Type} (c : Cycle α) (g : α → β) : Cycle β := { saved := c.saved.map g, rest := c.rest.map g }

theorem Cycle.next_mapC {α β : Type} (c : Cycle α) (g : α → β) : (c.mapC g).next = c.next.map (fun r => (g r.1, r.2.mapC g)) := by
  rcases c with ⟨saved, rest⟩
  cases rest with
  | cons x xs => rfl
  | nil => cases saved <;> rfl

theorem zipTry_step (ss : List Span) : ∀ (c : Cycle (Try L)) (st : TLState L),
    zipRun ss (c.mapC Try.step) st = match zipTry ss c st with
      | (st', none) => .ok st'
      | (_, some e) => .error e := by
  induction ss with
  | nil => intro c st; rfl
  | cons s ss ih =>
    intro c st
    unfold zipRun zipTry
    rw [Cycle.next_mapC]
    cases c.next with
    | none => rfl
    | some r =>
      simp only [Option.map_some, Try.step]
      generalize r.1 s st = z
      rcases z with ⟨st', _ | e⟩
      · exact ih r.2 st'
      · rfl

theorem zipTryRP_step (ss : List Span) : ∀ (i : Nat) (st : TLState L), (zipTryRP ss i st).2 = none ∧ zipRunRP ss i st = .ok (zipTryRP ss i st).1 := by
  induction ss with
  | nil => intro i st; exact ⟨rfl, rfl⟩
  | cons s ss ih =>
    intro i st
    unfold zipRunRP zipTryRP
    cases (st.heap i).next with
    | none => exact ⟨rfl, rfl⟩
    | some r => exact ih i _

mutual
theorem Layout.attempt_step (f : Frame) : ∀ l : Layout L, Try.step (Layout.attempt f l) = Layout.run f l
  | .organizer cut elems => by
    funext s st
    simp only [Layout.attempt, Layout.run, Try.step]
    cases f.cutSpan cut s with
    | error e => rfl
    | ok ss =>
      have := zipTry_step ss (Cycle.start (Layout.attemptAll f elems)) st
      have e : (Cycle.start (Layout.attemptAll f elems)).mapC Try.step = Cycle.start (Layout.runAll f elems) := by
        rw [← Layout.attemptAll_step f elems]; rfl
      rw [e] at this
      exact this.symm
  | .organizerRP cut i => by
    funext s st
    simp only [Layout.attempt, Layout.run, Try.step]
    cases f.cutSpan cut s with
    | error e => rfl
    | ok ss =>
      obtain ⟨h1, h2⟩ := zipTryRP_step ss i st
      simp only
      generalize zipTryRP ss i st = z at *
      rcases z with ⟨st', _ | e⟩
      · exact h2.symm
      · cases h1
  | .pattern p => by
    funext s st
    simp only [Layout.attempt, Layout.run, Try.step, applyPatternTry, applyPattern]
    by_cases hs : s.skipLeft < 0
    · simp only [hs, if_true]
    · simp only [hs, if_false]
      cases skiperatorTake p s.skipLeft.toNat (s.last + 1 - s.first).toNat st.heap <;> rfl
  | .label l => by
    funext s st
    simp only [Layout.attempt, Layout.run, Try.step, makeCompoundTry, makeCompound]
theorem Layout.attemptAll_step (f : Frame) : ∀ ls : List (Layout L), (Layout.attemptAll f ls).map Try.step = Layout.runAll f ls
  | [] => rfl
  | l :: ls => by
    simp only [Layout.attemptAll, Layout.runAll, List.map_cons]
    rw [Layout.attempt_step f l, Layout.attemptAll_step f ls]
end

theorem Timeboard.attempt_new (a : Args L) (heap : Heap L) :
    Timeboard.new a heap = match Timeboard.attempt a heap with
      | (h, .ok tb) => .ok (tb, h)
      | (_, .error e) => .error e := by
  unfold Timeboard.new Timeboard.attempt
  cases makeOrganizer a.layout with
  | error e => rfl
  | ok org =>
    simp only
    split
    · rfl
    · cases Frame.new a.freq a.start a.stop with
      | error e => rfl
      | ok f =>
        simp only [Timeline.new]
        rw [← Layout.attempt_step f org]
        simp only [Try.step]
        generalize Layout.attempt f org _ _ = z
        rcases z with ⟨st, _ | e⟩
        · simp only
          generalize Timeline.amend _ _ = w
          cases w <;> rfl
        · rfl

/-! ### Labels drawn -/

/-- Whatever the outcome, a RememberingPattern hands out its labels in turn, and not more of them than listed. -/
def Sips (id : Nat) (t : Try L) (draws : Span → List (Option Int)) : Prop :=
  ∀ (s : Span) (st : TLState L) (xs : List L) (p : Nat), s.first ≤ s.last → (st.heap id).HandedOut xs p →
    ∃ k, k ≤ (draws s).length ∧ ((t s st).1.heap id).HandedOut xs (p + k)

theorem sips_of_tracks {id : Nat} {t : Try L} {d : Span → List (Option Int)} (h : Tracks id t.step d)
    (he : ∀ s st e st', t s st = (st', some e) → st'.heap = st.heap) : Sips id t d := by
  intro s st xs p hle hp
  rcases hz : t s st with ⟨st', _ | e⟩
  · refine ⟨_, Nat.le_refl _, (h s st st' xs p hle ?_ hp).1⟩
    unfold Try.step; rw [hz]
  · refine ⟨0, Nat.zero_le _, ?_⟩
    simp only
    rw [he s st e st' hz]
    exact hp

theorem zipTry_sips {id : Nat} {ts : List (Try L)} {ds : List (Span → List (Option Int))} (hl : ts.length = ds.length)
    (htr : ∀ (i : Nat) (t : Try L) (d : Span → List (Option Int)), ts[i]? = some t → ds[i]? = some d → Sips id t d) :
    ∀ (ss : List Span) {a b : Int} {c : Cycle (Try L)} {q p : Nat} {st : TLState L} {xs : List L}, c.HandedOut ts q → Tiles a b ss →
    (st.heap id).HandedOut xs p →
    ∃ k, k ≤ ((ss.zipIdx q).flatMap (fun si => match ds[si.2 % ds.length]? with
      | some d => d si.1
      | none => [])).length ∧ ((zipTry ss c st).1.heap id).HandedOut xs (p + k) := by
  intro ss
  induction ss with
  | nil => intro a b c q p st xs hc ht; exact ht.elim
  | cons s ss ih =>
    intro a b c q p st xs hc ht hp
    have hm := ht.mem (List.mem_cons_self : s ∈ s :: ss)
    obtain ⟨step, c', h1, h2, h3⟩ := hc.next
    unfold zipTry
    rw [h1]
    simp only
    have hlen : 0 < ts.length := List.length_pos_iff.2 hc.1
    have hqlt : q % ds.length < ds.length := Nat.mod_lt _ (by omega)
    obtain ⟨d, hd⟩ : ∃ d, ds[q % ds.length]? = some d := ⟨_, List.getElem?_eq_getElem hqlt⟩
    have hstep : ts[q % ds.length]? = some step := by rw [← hl]; exact h2
    obtain ⟨k, k1, k2⟩ := htr _ _ _ hstep hd s st xs p hm.2.1 hp
    simp only [List.zipIdx_cons, List.flatMap_cons, hd, List.length_append]
    rcases hz : step s st with ⟨st1, _ | e⟩
    · rw [hz] at k2
      simp only at k2 ⊢
      cases ss with
      | nil => exact ⟨k, by omega, k2⟩
      | cons t r =>
        obtain ⟨_, h4, h5⟩ := ht
        obtain ⟨k', j1, j2⟩ := ih h3 h5 k2
        exact ⟨k + k', by omega, by rw [← Nat.add_assoc]; exact j2⟩
    · rw [hz] at k2
      exact ⟨k, by omega, k2⟩

theorem Layout.length_attemptAll (f : Frame) (ls : List (Layout L)) : (Layout.attemptAll f ls).length = ls.length := by
  induction ls with
  | nil => simp [Layout.attemptAll]
  | cons l ls ih => simp [Layout.attemptAll, ih]

mutual
theorem Layout.attempt_sips (f : Frame) (id : Nat) : ∀ l : Layout L, Sips id (Layout.attempt f l) (Layout.draws f id l)
  | .organizer cut elems => by
    intro s st xs p hle hp
    simp only [Layout.attempt, Layout.draws]
    cases hc : f.cutSpan cut s with
    | error e => exact ⟨0, by simp, hp⟩
    | ok ss =>
      simp only
      have htl := (Frame.cutSpan_tiles hc).2.2
      by_cases hnil : Layout.attemptAll f elems = []
      · rw [hnil]
        refine ⟨0, Nat.zero_le _, ?_⟩
        cases ss <;> exact hp
      · exact zipTry_sips (by rw [Layout.length_attemptAll, Layout.length_drawsAll]) (Layout.attemptAll_sips f id elems) ss
          (Cycle.handedOut_start hnil) htl hp
  | .organizerRP cut j => by
    refine sips_of_tracks (by rw [Layout.attempt_step]; exact Layout.run_tracks f id _) ?_
    intro s st e st' h
    simp only [Layout.attempt] at h
    cases hc : f.cutSpan cut s with
    | error e' => rw [hc] at h; cases h; rfl
    | ok ss =>
      rw [hc] at h
      have := (zipTryRP_step ss j st).1
      simp only at h
      rw [h] at this
      cases this
  | .pattern p => by
    refine sips_of_tracks (by rw [Layout.attempt_step]; exact Layout.run_tracks f id _) ?_
    intro s st e st' h
    simp only [Layout.attempt, applyPatternTry] at h
    split at h
    · cases h; rfl
    · split at h <;> cases h
  | .label l => by
    refine sips_of_tracks (by rw [Layout.attempt_step]; exact Layout.run_tracks f id _) ?_
    intro s st e st' h
    cases h
theorem Layout.attemptAll_sips (f : Frame) (id : Nat) : ∀ (ls : List (Layout L)) (i : Nat) (s : Try L) (d : Span → List (Option Int)),
    (Layout.attemptAll f ls)[i]? = some s → (Layout.drawsAll f id ls)[i]? = some d → Sips id s d
  | [] => by intro i s d h; simp [Layout.attemptAll] at h
  | l :: ls => by
    intro i s d h1 h2
    cases i with
    | zero =>
      simp only [Layout.attemptAll, Layout.drawsAll, List.getElem?_cons_zero, Option.some.injEq] at h1 h2
      subst h1; subst h2
      exact Layout.attempt_sips f id l
    | succ i =>
      simp only [Layout.attemptAll, Layout.drawsAll, List.getElem?_cons_succ] at h1 h2
      exact Layout.attemptAll_sips f id ls i s d h1 h2
end

/-! ### The outcome does not depend on the states of RememberingPatterns -/

theorem Cycle.MadeOf.next_none {c c' : Cycle L} {xs : List L} (h : c.MadeOf xs) (h' : c'.MadeOf xs) : c.next = none ↔ c'.next = none := by
  rcases h with ⟨h1, h2⟩ | ⟨p, h⟩
  · rcases h' with ⟨h3, h4⟩ | ⟨p, h'⟩
    · rw [h2, h4]
    · exact absurd h1 h'.1
  · rcases h' with ⟨h3, h4⟩ | ⟨p', h'⟩
    · exact absurd h3 h.1
    · obtain ⟨_, _, e, _⟩ := h.next
      obtain ⟨_, _, e', _⟩ := h'.next
      rw [e, e']; simp

theorem Cycle.MadeOf.next_some {c c' : Cycle L} {xs : List L} {x : L} (h : c.MadeOf xs) (hn : c.next = some (x, c')) : c'.MadeOf xs := by
  rcases h with ⟨_, h2⟩ | ⟨p, h⟩
  · rw [h2] at hn; cases hn
  · obtain ⟨_, _, e, _, g⟩ := h.next
    rw [e] at hn; cases hn
    exact .inr ⟨_, g⟩

/-- A fact about the RememberingPattern `i` which is not lost when a label is drawn. -/
def Kept (i : Nat) (Q : Nat → Cycle L → Prop) : Prop := ∀ c x c', Q i c → c.next = some (x, c') → Q i c'

theorem Src.take_kept {Q : Nat → Cycle L → Prop} {i : Nat} (hQ : Kept i Q) : ∀ (n : Nat) {h h' : Heap L} {ys : List L} {s' : Src L},
    Src.take n (.shared i) h = some (ys, s', h') → s' = .shared i ∧ ((∀ j, Q j (h j)) → ∀ j, Q j (h' j)) := by
  intro n
  induction n with
  | zero => intro h h' ys s' e; cases e; exact ⟨rfl, fun hm => hm⟩
  | succ n ih =>
    intro h h' ys s' e
    unfold Src.take Src.next at e
    simp only at e
    cases hn : (h i).next with
    | none => rw [hn] at e; cases e
    | some r =>
      rw [hn] at e
      simp only at e
      cases ht : Src.take n (.shared i) (h.set i r.2) with
      | none => rw [ht] at e; cases e
      | some q =>
        rw [ht] at e
        cases e
        obtain ⟨e1, e2⟩ := ih ht
        refine ⟨e1, fun hm => e2 fun j => ?_⟩
        by_cases hj : j = i
        · subst hj; rw [Heap.set_same]; exact hQ _ _ _ (hm j) hn
        · rw [Heap.set_other _ _ hj]; exact hm j

theorem skiperatorTake_kept {Q : Nat → Cycle L → Prop} {p : Pattern L} (hQ : ∀ i, p = .rp i → Kept i Q) {a b : Nat} {h h' : Heap L} {ys : List L}
    (e : skiperatorTake p a b h = some (ys, h')) (hm : ∀ j, Q j (h j)) : ∀ j, Q j (h' j) := by
  unfold skiperatorTake at e
  cases p with
  | list zs =>
    simp only [Pattern.src] at e
    cases h1 : Src.take a (.fresh (Cycle.start zs)) h with
    | none => rw [h1] at e; cases e
    | some r =>
      rw [h1] at e
      obtain ⟨e1, c', e2⟩ := Src.take_fresh_heap a h1
      simp only at e
      rw [e1, e2] at e
      cases h2 : Src.take b (.fresh c') h with
      | none => rw [h2] at e; cases e
      | some q =>
        rw [h2] at e
        cases e
        rw [(Src.take_fresh_heap b h2).1]; exact hm
  | rp i =>
    simp only [Pattern.src] at e
    cases h1 : Src.take a (.shared i) h with
    | none => rw [h1] at e; cases e
    | some r =>
      rw [h1] at e
      obtain ⟨e1, e2⟩ := Src.take_kept (hQ i rfl) a h1
      simp only at e
      rw [e1] at e
      cases h2 : Src.take b (.shared i) r.2.2 with
      | none => rw [h2] at e; cases e
      | some q =>
        rw [h2] at e
        cases e
        exact (Src.take_kept (hQ i rfl) b h2).2 (e2 hm)

def Try.Keeps (t : Try L) (Q : Nat → Cycle L → Prop) : Prop := ∀ s st, (∀ j, Q j (st.heap j)) → ∀ j, Q j ((t s st).1.heap j)

theorem zipTry_keeps {Q : Nat → Cycle L → Prop} (ss : List Span) : ∀ (c : Cycle (Try L)) (st : TLState L), (∀ t ∈ c.saved, t.Keeps Q) →
    (∀ t ∈ c.rest, t.Keeps Q) → (∀ j, Q j (st.heap j)) → ∀ j, Q j ((zipTry ss c st).1.heap j) := by
  induction ss with
  | nil => intro c st _ _ h; exact h
  | cons s ss ih =>
    intro c st h1 h2 h
    unfold zipTry
    have key : ∀ t c', c.next = some (t, c') → t.Keeps Q ∧ (∀ t ∈ c'.saved, t.Keeps Q) ∧ (∀ t ∈ c'.rest, t.Keeps Q) := by
      intro t c' hn
      unfold Cycle.next at hn
      split at hn
      · rename_i x xs e
        cases hn
        exact ⟨h2 _ (by rw [e]; simp), h1, fun y hy => h2 y (by rw [e]; simp [hy])⟩
      · split at hn
        · cases hn
        · rename_i x xs e
          cases hn
          exact ⟨h1 _ (by rw [e]; simp), h1, fun y hy => h1 y (by rw [e]; simp [hy])⟩
    cases hn : c.next with
    | none => exact h
    | some r =>
      obtain ⟨k1, k2, k3⟩ := key r.1 r.2 hn
      have e2 := k1 s st h
      simp only
      generalize r.1 s st = z at *
      rcases z with ⟨u, _ | e⟩
      · exact ih r.2 u k2 k3 e2
      · exact e2

theorem zipTryRP_keeps {Q : Nat → Cycle L → Prop} {i : Nat} (hQ : Kept i Q) (ss : List Span) : ∀ (st : TLState L), (∀ j, Q j (st.heap j)) →
    ∀ j, Q j ((zipTryRP ss i st).1.heap j) := by
  induction ss with
  | nil => intro st h; exact h
  | cons s ss ih =>
    intro st h
    unfold zipTryRP
    cases hn : (st.heap i).next with
    | none => exact h
    | some r =>
      simp only [makeCompoundTry]
      refine ih _ ?_
      intro j
      by_cases hj : j = i
      · subst hj
        simp only [Heap.set_same]
        exact hQ _ _ _ (h j) hn
      · simp only [Heap.set_other _ _ hj]
        exact h j

mutual
theorem Layout.attempt_keeps (f : Frame) {Q : Nat → Cycle L → Prop} : ∀ l : Layout L, (∀ i, l.UsesRP i → Kept i Q) → (Layout.attempt f l).Keeps Q
  | .organizer cut elems => by
    intro hQ s st h
    simp only [Layout.attempt]
    have hk := Layout.attemptAll_keeps f elems (fun l hl i hu => hQ i (hu.elem hl))
    cases f.cutSpan cut s with
    | error e => exact h
    | ok ss => exact zipTry_keeps ss _ st hk hk h
  | .organizerRP cut i => by
    intro hQ s st h
    simp only [Layout.attempt]
    cases f.cutSpan cut s with
    | error e => exact h
    | ok ss => exact zipTryRP_keeps (hQ i (.inr ⟨cut, .here⟩)) ss st h
  | .pattern p => by
    intro hQ s st h
    simp only [Layout.attempt, applyPatternTry]
    split
    · exact h
    · cases hz : skiperatorTake p s.skipLeft.toNat (s.last + 1 - s.first).toNat st.heap with
      | none => exact h
      | some r => exact skiperatorTake_kept (fun i hi => hQ i (by rw [hi]; exact .inl .here)) hz h
  | .label l => by
    intro hQ s st h
    exact h
theorem Layout.attemptAll_keeps (f : Frame) {Q : Nat → Cycle L → Prop} : ∀ (ls : List (Layout L)), (∀ l ∈ ls, ∀ i, l.UsesRP i → Kept i Q) →
    ∀ t ∈ Layout.attemptAll f ls, t.Keeps Q
  | [] => by intro _ t h; simp [Layout.attemptAll] at h
  | l :: ls => by
    intro hQ t h
    simp only [Layout.attemptAll, List.mem_cons] at h
    rcases h with rfl | h
    · exact Layout.attempt_keeps f l (hQ l (by simp))
    · exact Layout.attemptAll_keeps f ls (fun x hx => hQ x (by simp [hx])) t h
end

theorem makeOrganizer_usesRP {l org : Layout L} {i : Nat} (h : makeOrganizer l = .ok org) (hu : org.UsesRP i) : l.UsesRP i := by
  match l, h with
  | .organizer c es, h => cases h; exact hu
  | .organizerRP c i, h => cases h; exact hu
  | .pattern (.list xs), h =>
    cases h
    rcases hu with hu | ⟨cut, hu⟩
    · cases hu with
      | elem hl hw => simp only [List.mem_singleton] at hl; subst hl; cases hw
    · cases hu with
      | elem hl hw => simp only [List.mem_singleton] at hl; subst hl; cases hw

theorem Timeboard.attempt_keeps {a : Args L} {Q : Nat → Cycle L → Prop} (hQ : ∀ i, a.layout.UsesRP i → Kept i Q) {heap : Heap L}
    (h : ∀ j, Q j (heap j)) : ∀ j, Q j ((Timeboard.attempt a heap).1 j) := by
  unfold Timeboard.attempt
  cases ho : makeOrganizer a.layout with
  | error e => exact h
  | ok org =>
    simp only
    split
    · exact h
    · cases Frame.new a.freq a.start a.stop with
      | error e => exact h
      | ok f =>
        simp only
        have := Layout.attempt_keeps f org (fun i hu => hQ i (makeOrganizer_usesRP ho hu)) { first := 0, last := (f.n : Int) - 1 }
          { labels := fun _ => a.defaultLabel, mask := fun _ => true, heap := heap } h
        generalize Layout.attempt f org _ _ = z at *
        rcases z with ⟨st, _ | e⟩
        · simp only
          generalize Timeline.amend _ _ = w
          cases w <;> exact this
        · exact this

theorem Kept.madeOf (i j : Nat) (xs : List L) : Kept i (fun k c => k = j → Cycle.MadeOf c xs) := fun _ _ _ h hn hj => (h hj).next_some hn

/-- Two states of a construction which differ only in labels and in what RememberingPatterns have handed out. -/
def TLState.Like (st st' : TLState L) : Prop := st.mask = st'.mask ∧ st.heap.SameMaking st'.heap

def Try.Even (t : Try L) : Prop := ∀ s st st', st.Like st' → (t s st).2 = (t s st').2 ∧ (t s st).1.Like (t s st').1

theorem zipTry_even (ss : List Span) : ∀ (c : Cycle (Try L)) (st st' : TLState L), (∀ t ∈ c.saved, t.Even) → (∀ t ∈ c.rest, t.Even) →
    st.Like st' → (zipTry ss c st).2 = (zipTry ss c st').2 ∧ (zipTry ss c st).1.Like (zipTry ss c st').1 := by
  induction ss with
  | nil => intro c st st' _ _ h; exact ⟨rfl, h⟩
  | cons s ss ih =>
    intro c st st' h1 h2 h
    unfold zipTry
    have key : ∀ t c', c.next = some (t, c') → t.Even ∧ (∀ t ∈ c'.saved, t.Even) ∧ (∀ t ∈ c'.rest, t.Even) := by
      intro t c' hn
      unfold Cycle.next at hn
      split at hn
      · rename_i x xs e
        cases hn
        exact ⟨h2 _ (by rw [e]; simp), h1, fun y hy => h2 y (by rw [e]; simp [hy])⟩
      · split at hn
        · cases hn
        · rename_i x xs e
          cases hn
          exact ⟨h1 _ (by rw [e]; simp), h1, fun y hy => h1 y (by rw [e]; simp [hy])⟩
    cases hn : c.next with
    | none => exact ⟨rfl, h⟩
    | some r =>
      obtain ⟨k1, k2, k3⟩ := key r.1 r.2 hn
      obtain ⟨e1, e2⟩ := k1 s st st' h
      simp only
      generalize r.1 s st = z at *
      generalize r.1 s st' = z' at *
      rcases z with ⟨u, _ | e⟩ <;> rcases z' with ⟨u', _ | e'⟩
      · exact ih r.2 u u' k2 k3 e2
      · cases e1
      · cases e1
      · cases e1; exact ⟨rfl, e2⟩

theorem zipTryRP_even (ss : List Span) : ∀ (i : Nat) (st st' : TLState L), st.Like st' →
    (zipTryRP ss i st).2 = (zipTryRP ss i st').2 ∧ (zipTryRP ss i st).1.Like (zipTryRP ss i st').1 := by
  induction ss with
  | nil => intro i st st' h; exact ⟨rfl, h⟩
  | cons s ss ih =>
    intro i st st' h
    unfold zipTryRP
    obtain ⟨xs, m1, m2⟩ := h.2 i
    have hnn := m1.next_none m2
    cases hn : (st.heap i).next with
    | none => rw [hnn.1 hn]; exact ⟨rfl, h⟩
    | some r =>
      cases hn' : (st'.heap i).next with
      | none => rw [hnn.2 hn'] at hn; cases hn
      | some r' =>
        simp only [makeCompoundTry]
        refine ih i _ _ ⟨?_, ?_⟩
        · simp only [h.1]
        · intro j
          by_cases hj : j = i
          · subst hj
            simp only [Heap.set_same]
            exact ⟨xs, m1.next_some hn, m2.next_some hn'⟩
          · simp only [Heap.set_other _ _ hj]
            exact h.2 j

mutual
theorem Layout.attempt_even (f : Frame) : ∀ l : Layout L, (Layout.attempt f l).Even
  | .organizer cut elems => by
    intro s st st' h
    simp only [Layout.attempt]
    cases f.cutSpan cut s with
    | error e => exact ⟨rfl, h⟩
    | ok ss => exact zipTry_even ss _ st st' (Layout.attemptAll_even f elems) (Layout.attemptAll_even f elems) h
  | .organizerRP cut i => by
    intro s st st' h
    simp only [Layout.attempt]
    cases f.cutSpan cut s with
    | error e => exact ⟨rfl, h⟩
    | ok ss => exact zipTryRP_even ss i st st' h
  | .pattern p => by
    intro s st st' h
    simp only [Layout.attempt, applyPatternTry]
    split
    · exact ⟨rfl, h⟩
    · have hk : ∀ (h0 : Heap L) (z : Option (List L × Heap L)), skiperatorTake p s.skipLeft.toNat (s.last + 1 - s.first).toNat h0 = z →
          ∀ j xs, (h0 j).MadeOf xs → (((z.map Prod.snd).getD h0) j).MadeOf xs := by
        intro h0 z hz j xs hm
        cases z with
        | none => exact hm
        | some r =>
          exact (skiperatorTake_kept (Q := fun k c => k = j → c.MadeOf xs) (fun i _ => Kept.madeOf i j xs) hz
            (fun k hk => by subst hk; exact hm) j rfl)
      have a1 := hk st.heap _ rfl
      have a2 := hk st'.heap _ rfl
      generalize skiperatorTake p s.skipLeft.toNat (s.last + 1 - s.first).toNat st.heap = z at *
      generalize skiperatorTake p s.skipLeft.toNat (s.last + 1 - s.first).toNat st'.heap = z' at *
      have hh : Heap.SameMaking ((z.map Prod.snd).getD st.heap) ((z'.map Prod.snd).getD st'.heap) := by
        intro j
        obtain ⟨xs, m1, m2⟩ := h.2 j
        exact ⟨xs, a1 j xs m1, a2 j xs m2⟩
      rcases z with _ | r <;> rcases z' with _ | r'
      · exact ⟨rfl, h.1, hh⟩
      · exact ⟨rfl, h.1, hh⟩
      · exact ⟨rfl, h.1, hh⟩
      · exact ⟨rfl, h.1, hh⟩
  | .label l => by
    intro s st st' h
    refine ⟨rfl, ?_, h.2⟩
    simp only [Layout.attempt, makeCompoundTry, h.1]
theorem Layout.attemptAll_even (f : Frame) : ∀ (ls : List (Layout L)), ∀ t ∈ Layout.attemptAll f ls, t.Even
  | [] => by intro t h; simp [Layout.attemptAll] at h
  | l :: ls => by
    intro t h
    simp only [Layout.attemptAll, List.mem_cons] at h
    rcases h with rfl | h
    · exact Layout.attempt_even f l
    · exact Layout.attemptAll_even f ls t h
end

theorem Timeline.amendLocate_congr {tl tl' : Timeline L} (h : ∀ t, tl.wsPosition t = tl'.wsPosition t) (r : Bool) :
    ∀ (items : List (Time × L)) (acc : List (Int × L)), tl.amendLocate r items acc = tl'.amendLocate r items acc := by
  intro items
  induction items with
  | nil => intro acc; rfl
  | cons p rest ih =>
    intro acc
    rcases p with ⟨t, v⟩
    unfold Timeline.amendLocate
    rw [h t]
    cases tl'.wsPosition t with
    | error e => cases e <;> simp only [ih]
    | ok k => simp only [ih]

end TB
