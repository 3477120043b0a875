import Verif.Spec.Labels
import Verif.Lemmas.Attempt
import Verif.Lemmas.Layout4
/-! Where the labels of workshifts come from. -/
namespace TB
variable {L : Type}

/-- All labels of the cycle have the property; if `ne` then there are some. -/
def Cycle.Good (P : L → Prop) (ne : Prop) (c : Cycle L) : Prop := (∀ x ∈ c.saved, P x) ∧ (∀ x ∈ c.rest, P x) ∧ (ne → c.saved ≠ [])

theorem Cycle.Good.next_some {P : L → Prop} {ne : Prop} {c c' : Cycle L} {x : L} (h : c.Good P ne) (hn : c.next = some (x, c')) : P x ∧ c'.Good P ne := by
  obtain ⟨h1, h2, h3⟩ := Cycle.mem_next hn h.1 h.2.1
  refine ⟨h1, h2, h3, fun hne => ?_⟩
  have e : c'.saved = c.saved := by
    unfold Cycle.next at hn
    split at hn
    · cases hn; rfl
    · split at hn
      · cases hn
      · cases hn; rfl
  rw [e]; exact h.2.2 hne

theorem Cycle.Good.next_ne {P : L → Prop} {ne : Prop} {c : Cycle L} (h : c.Good P ne) (hne : ne) : c.next ≠ none := by
  unfold Cycle.next
  split
  · simp
  · split
    · rename_i e; exact absurd e (h.2.2 hne)
    · simp

/-- The RememberingPatterns of the set are good. -/
def Heap.Good (R : Nat → Prop) (P : L → Prop) (ne : Prop) (h : Heap L) : Prop := ∀ id, R id → (h id).Good P ne

def Src.Good (R : Nat → Prop) (P : L → Prop) (ne : Prop) : Src L → Prop
  | .fresh c => c.Good P ne
  | .shared id => R id

variable {R : Nat → Prop} {P : L → Prop} {ne : Prop}

theorem Heap.Good.set {h : Heap L} (hh : h.Good R P ne) {id : Nat} {c : Cycle L} (hc : c.Good P ne) : (h.set id c).Good R P ne := by
  intro j hj
  by_cases e : j = id
  · subst e; rw [Heap.set_same]; exact hc
  · rw [Heap.set_other _ _ e]; exact hh j hj

theorem Src.Good.next {s s' : Src L} {h h' : Heap L} {x : L} (hs : s.Good R P ne) (hh : h.Good R P ne) (e : s.next h = some (x, s', h')) :
    P x ∧ s'.Good R P ne ∧ h'.Good R P ne := by
  cases s with
  | fresh c =>
    simp only [Src.next] at e
    cases hn : c.next with
    | none => rw [hn] at e; cases e
    | some r =>
      rw [hn] at e; cases e
      obtain ⟨h1, h2⟩ := hs.next_some (x := r.1) (c' := r.2) hn
      exact ⟨h1, h2, hh⟩
  | shared id =>
    simp only [Src.next] at e
    cases hn : (h id).next with
    | none => rw [hn] at e; cases e
    | some r =>
      rw [hn] at e; cases e
      obtain ⟨h1, h2⟩ := (hh id hs).next_some (x := r.1) (c' := r.2) hn
      exact ⟨h1, hs, hh.set h2⟩

theorem Src.Good.next_ne {s : Src L} {h : Heap L} (hs : s.Good R P ne) (hh : h.Good R P ne) (hne : ne) : s.next h ≠ none := by
  cases s with
  | fresh c =>
    simp only [Src.next]
    cases hn : c.next with
    | none => exact absurd hn (Cycle.Good.next_ne hs hne)
    | some r => simp
  | shared id =>
    simp only [Src.next]
    cases hn : (h id).next with
    | none => exact absurd hn ((hh id hs).next_ne hne)
    | some r => simp

theorem Src.Good.take : ∀ (n : Nat) {s s' : Src L} {h h' : Heap L} {xs : List L}, s.Good R P ne → h.Good R P ne →
    Src.take n s h = some (xs, s', h') → (∀ x ∈ xs, P x) ∧ xs.length = n ∧ s'.Good R P ne ∧ h'.Good R P ne := by
  intro n
  induction n with
  | zero => intro s s' h h' xs hs hh e; cases e; exact ⟨by simp, rfl, hs, hh⟩
  | succ n ih =>
    intro s s' h h' xs hs hh e
    unfold Src.take at e
    cases hn : s.next h with
    | none => rw [hn] at e; cases e
    | some r =>
      rw [hn] at e
      obtain ⟨h1, h2, h3⟩ := hs.next hh hn
      simp only at e
      cases ht : Src.take n r.2.1 r.2.2 with
      | none => rw [ht] at e; cases e
      | some q =>
        rw [ht] at e; cases e
        obtain ⟨i1, i2, i3, i4⟩ := ih h2 h3 ht
        refine ⟨?_, by simp [i2], i3, i4⟩
        intro x hx
        rcases List.mem_cons.1 hx with rfl | hx
        · exact h1
        · exact i1 x hx

theorem Src.Good.take_ne : ∀ (n : Nat) {s : Src L} {h : Heap L}, s.Good R P ne → h.Good R P ne → ne → Src.take n s h ≠ none := by
  intro n
  induction n with
  | zero => intro s h _ _ _; simp [Src.take]
  | succ n ih =>
    intro s h hs hh hne
    unfold Src.take
    cases hn : s.next h with
    | none => exact absurd hn (hs.next_ne hh hne)
    | some r =>
      obtain ⟨h1, h2, h3⟩ := hs.next hh hn
      simp only
      cases ht : Src.take n r.2.1 r.2.2 with
      | none => exact absurd ht (ih h2 h3 hne)
      | some q => simp

/-- The element draws labels with the property only; if `ne` then it gives such a label to each workshift of the span. -/
def Step.Gives (R : Nat → Prop) (P : L → Prop) (ne : Prop) (step : Step L) : Prop :=
  ∀ (s : Span) (st st' : TLState L), s.first ≤ s.last → st.heap.Good R P ne → step s st = .ok st' →
    st'.heap.Good R P ne ∧ ((∀ i, P (st.labels i)) → ∀ i, P (st'.labels i)) ∧
    (ne → ∀ i, s.first ≤ i → i ≤ s.last → st'.mask i = true → P (st'.labels i))

theorem applyPattern_gives {p : Pattern L} (hp : (Pattern.src p).Good R P ne) : Step.Gives R P ne (applyPattern p) := by
  intro s st st' hs hh h
  unfold applyPattern at h
  split at h
  · cases h
  · rename_i hsk
    unfold skiperatorTake at h
    cases h1 : Src.take s.skipLeft.toNat p.src st.heap with
    | none =>
      rw [h1] at h; cases h
      exact ⟨hh, fun x => x, fun hne => absurd h1 (hp.take_ne _ hh hne)⟩
    | some r =>
      obtain ⟨_, _, g1, g2⟩ := hp.take _ hh h1
      rw [h1] at h
      simp only at h
      cases h2 : Src.take (s.last + 1 - s.first).toNat r.2.1 r.2.2 with
      | none =>
        rw [h2] at h; cases h
        exact ⟨hh, fun x => x, fun hne => absurd h2 (g1.take_ne _ g2 hne)⟩
      | some q =>
        obtain ⟨k1, k2, _, k4⟩ := g1.take _ g2 h2
        rw [h2] at h; cases h
        have hget : ∀ i, s.first ≤ i → i ≤ s.last → ∃ x ∈ q.1, q.1[(i - s.first).toNat]? = some x := by
          intro i a b
          have : (i - s.first).toNat < q.1.length := by rw [k2]; omega
          exact ⟨_, List.getElem_mem this, by rw [List.getElem?_eq_getElem this]⟩
        refine ⟨k4, ?_, ?_⟩
        · intro hl i
          simp only
          split
          · rename_i hi
            obtain ⟨x, hx, e⟩ := hget i hi.1 hi.2
            rw [e]; exact k1 x hx
          · exact hl i
        · intro _ i a b _
          simp only [if_pos (And.intro a b)]
          obtain ⟨x, hx, e⟩ := hget i a b
          rw [e]; exact k1 x hx

theorem makeCompound_gives {l : L} (hl : P l) : Step.Gives R P ne (makeCompound l) := by
  intro s st st' hs hh h
  cases h
  refine ⟨hh, ?_, ?_⟩
  · intro h0 i
    simp only
    split
    · exact hl
    · exact h0 i
  · intro _ i a b hm
    simp only at hm ⊢
    by_cases e : i = s.first
    · rw [if_pos e]; exact hl
    · rw [if_pos (by omega)] at hm; cases hm

theorem zipRun_gives {ss : List Span} : ∀ {a b : Int} {c : Cycle (Step L)} {st st' : TLState L},
    Tiles a b ss → (∀ p ∈ c.saved, Step.Local p ∧ Step.Gives R P ne p) → (∀ p ∈ c.rest, Step.Local p ∧ Step.Gives R P ne p) → (ne → c.saved ≠ []) →
    st.heap.Good R P ne → zipRun ss c st = .ok st' →
    st'.heap.Good R P ne ∧ ((∀ i, P (st.labels i)) → ∀ i, P (st'.labels i)) ∧
    (ne → ∀ i, a ≤ i → i ≤ b → st'.mask i = true → P (st'.labels i)) := by
  induction ss with
  | nil => intro a b c st st' ht; exact ht.elim
  | cons s ss ih =>
    intro a b c st st' ht hs hr hne hh h
    have hm := ht.mem (List.mem_cons_self : s ∈ s :: ss)
    have hf : s.first = a := by cases ss <;> exact ht.1
    unfold zipRun at h
    cases hn : c.next with
    | none =>
      rw [hn] at h; cases h
      refine ⟨hh, fun x => x, fun h0 => absurd hn ?_⟩
      unfold Cycle.next
      split
      · simp
      · split
        · rename_i e; exact absurd e (hne h0)
        · simp
    | some q =>
      obtain ⟨step, c'⟩ := q
      obtain ⟨hp, hs', hr'⟩ := c.mem_next hn hs hr
      have hne' : ne → c'.saved ≠ [] := by
        intro h0
        have e : c'.saved = c.saved := by
          unfold Cycle.next at hn
          split at hn
          · cases hn; rfl
          · split at hn
            · cases hn
            · cases hn; rfl
        rw [e]; exact hne h0
      rw [hn] at h
      simp only at h
      cases he : step s st with
      | error e => rw [he] at h; cases h
      | ok st1 =>
        rw [he] at h
        simp only at h
        obtain ⟨h1, h2, h3⟩ := hp.2 s st st1 hm.2.1 hh he
        cases ss with
        | nil =>
          simp only [zipRun, Except.ok.injEq] at h; subst h
          have hb : s.last = b := ht.2.1
          exact ⟨h1, h2, fun h0 i x y => h3 h0 i (by omega) (by omega)⟩
        | cons t r =>
          obtain ⟨_, h4, h5⟩ := ht
          obtain ⟨i1, i2, i3⟩ := ih h5 hs' hr' hne' h1 h
          obtain ⟨h6, h7⟩ := zipRun_local h5 (fun p hp => (hs' p hp).1) (fun p hp => (hr' p hp).1) h
          refine ⟨i1, fun x => i2 (h2 x), ?_⟩
          intro h0 i x y hmask
          rcases Int.lt_or_le s.last i with hi | hi
          · exact i3 h0 i (by omega) y hmask
          · obtain ⟨e1, e2⟩ := h6 i (by omega)
            rw [e2] at hmask
            rw [e1]
            exact h3 h0 i (by omega) hi hmask

theorem zipRunRP_gives {id : Nat} (hid : R id) {ss : List Span} : ∀ {a b : Int} {st st' : TLState L},
    Tiles a b ss → st.heap.Good R P ne → zipRunRP ss id st = .ok st' →
    st'.heap.Good R P ne ∧ ((∀ i, P (st.labels i)) → ∀ i, P (st'.labels i)) ∧
    (ne → ∀ i, a ≤ i → i ≤ b → st'.mask i = true → P (st'.labels i)) := by
  induction ss with
  | nil => intro a b st st' ht; exact ht.elim
  | cons s ss ih =>
    intro a b st st' ht hh h
    have hm := ht.mem (List.mem_cons_self : s ∈ s :: ss)
    have hf : s.first = a := by cases ss <;> exact ht.1
    unfold zipRunRP at h
    cases hn : (st.heap id).next with
    | none =>
      rw [hn] at h; cases h
      exact ⟨hh, fun x => x, fun h0 => absurd hn ((hh id hid).next_ne h0)⟩
    | some q =>
      obtain ⟨l, c'⟩ := q
      obtain ⟨g1, g2⟩ := (hh id hid).next_some hn
      rw [hn] at h
      simp only at h
      cases he : makeCompound l s { st with heap := st.heap.set id c' } with
      | error e => rw [he] at h; cases h
      | ok st1 =>
        rw [he] at h
        simp only at h
        obtain ⟨h1, h2, h3⟩ := makeCompound_gives (R := R) (ne := ne) g1 s { st with heap := st.heap.set id c' } st1 hm.2.1 (hh.set g2) he
        cases ss with
        | nil =>
          simp only [zipRunRP, Except.ok.injEq] at h; subst h
          have hb : s.last = b := ht.2.1
          exact ⟨h1, h2, fun h0 i x y => h3 h0 i (by omega) (by omega)⟩
        | cons t r =>
          obtain ⟨_, h4, h5⟩ := ht
          obtain ⟨i1, i2, i3⟩ := ih h5 h1 h
          obtain ⟨h6, h7⟩ := zipRunRP_local h5 h
          refine ⟨i1, fun x => i2 (h2 x), ?_⟩
          intro h0 i x y hmask
          rcases Int.lt_or_le s.last i with hi | hi
          · exact i3 h0 i (by omega) y hmask
          · obtain ⟨e1, e2⟩ := h6 i (by omega)
            rw [e2] at hmask
            rw [e1]
            exact h3 h0 i (by omega) hi hmask

/-- What a layout must be for `Step.Gives`. -/
structure Layout.Made (R : Nat → Prop) (P : L → Prop) (ne : Prop) (l : Layout L) : Prop where
  label : ∀ x, Layout.Within (.label x) l → P x
  list : ∀ xs, Layout.Within (.pattern (.list xs)) l → (∀ x ∈ xs, P x) ∧ (ne → xs ≠ [])
  rp : ∀ id, l.UsesRP id → R id
  elems : ne → ∀ cut, ¬ Layout.Within (.organizer cut []) l

theorem Layout.Made.elem {cut : Cut} {elems : List (Layout L)} {l : Layout L} (h : (Layout.organizer cut elems).Made R P ne) (hl : l ∈ elems) : l.Made R P ne :=
  ⟨fun x hx => h.label x (.elem hl hx), fun xs hx => h.list xs (.elem hl hx), fun id hi => h.rp id (hi.elem hl), fun h0 c hc => h.elems h0 c (.elem hl hc)⟩

mutual
theorem Layout.run_gives (f : Frame) : ∀ l : Layout L, l.Made R P ne → Step.Gives R P ne (Layout.run f l)
  | .organizer cut elems => by
    intro hl s st st' hs hh h
    simp only [Layout.run] at h
    cases hc : f.cutSpan cut s with
    | error e => rw [hc] at h; cases h
    | ok ss =>
      rw [hc] at h
      have hall := Layout.runAll_gives f elems (fun l hm => hl.elem hm)
      have hloc := Layout.runAll_local f elems
      refine zipRun_gives (Frame.cutSpan_tiles hc).2.2 (fun p hp => ⟨hloc p hp, hall p hp⟩) (fun p hp => ⟨hloc p hp, hall p hp⟩) ?_ hh h
      intro h0 e
      have : elems = [] := by
        cases elems with
        | nil => rfl
        | cons l ls => simp [Cycle.start, Layout.runAll] at e
      subst this
      exact hl.elems h0 cut .here
  | .organizerRP cut i => by
    intro hl s st st' hs hh h
    simp only [Layout.run] at h
    cases hc : f.cutSpan cut s with
    | error e => rw [hc] at h; cases h
    | ok ss =>
      rw [hc] at h
      exact zipRunRP_gives (hl.rp i (.inr ⟨cut, .here⟩)) (Frame.cutSpan_tiles hc).2.2 hh h
  | .pattern p => by
    intro hl
    simp only [Layout.run]
    apply applyPattern_gives
    cases p with
    | list xs =>
      have := hl.list xs .here
      exact ⟨this.1, this.1, this.2⟩
    | rp id => exact hl.rp id (.inl .here)
  | .label l => by intro hl; simp only [Layout.run]; exact makeCompound_gives (hl.label l .here)
theorem Layout.runAll_gives (f : Frame) : ∀ ls : List (Layout L), (∀ l ∈ ls, l.Made R P ne) → ∀ p ∈ Layout.runAll f ls, Step.Gives R P ne p
  | [] => by simp [Layout.runAll]
  | l :: ls => by
    intro hl p hp
    simp only [Layout.runAll, List.mem_cons] at hp
    rcases hp with hp | hp
    · rw [hp]; exact Layout.run_gives f l (hl l (by simp))
    · exact Layout.runAll_gives f ls (fun l h => hl l (by simp [h])) p hp
end

theorem makeOrganizer_made {l org : Layout L} (h : makeOrganizer l = .ok org) (hl : l.Made R P ne) : org.Made R P ne := by
  match l, h with
  | .organizer c es, h => cases h; exact hl
  | .organizerRP c i, h => cases h; exact hl
  | .pattern p, h =>
    cases p with
    | list xs =>
      cases h
      have hw : ∀ x, Layout.Within x (.organizer (.marks []) [.pattern (.list xs)]) → x = .organizer (.marks []) [.pattern (.list xs)] ∨ Layout.Within x (.pattern (.list xs)) := by
        intro x hx
        cases hx with
        | here => exact .inl rfl
        | elem h1 h2 =>
          simp only [List.mem_singleton] at h1
          subst h1
          exact .inr h2
      refine ⟨fun x hx => ?_, fun ys hy => ?_, fun id hi => ?_, fun h0 cut hc => ?_⟩
      · rcases hw _ hx with e | e
        · cases e
        · exact hl.label x e
      · rcases hw _ hy with e | e
        · cases e
        · exact hl.list ys e
      · rcases hi with hi | ⟨c, hi⟩
        · rcases hw _ hi with e | e
          · cases e
          · exact hl.rp id (.inl e)
        · rcases hw _ hi with e | e
          · cases e
          · exact hl.rp id (.inr ⟨c, e⟩)
      · rcases hw _ hc with e | e
        · cases e
        · exact hl.elems h0 cut e
    | rp i => cases h
  | .label x, h => cases h

theorem Layout.made_of_offers {l : Layout L} {heap : Heap L} : l.Made l.UsesRP (l.Offers heap) (l.Filled heap) :=
  ⟨fun _ hx => .inl hx, fun xs hx => ⟨fun x hm => .inr (.inl ⟨xs, hx, hm⟩), fun h e => h.2.1 (e ▸ hx)⟩, fun _ hi => hi, fun h => h.1⟩

theorem Heap.good_of_offers {l : Layout L} {heap : Heap L} : heap.Good l.UsesRP (l.Offers heap) (l.Filled heap) :=
  fun id hi => ⟨fun _ hx => .inr (.inr ⟨id, hi, .inl hx⟩), fun _ hx => .inr (.inr ⟨id, hi, .inr hx⟩), fun h => h.2.2 id hi⟩

end TB
