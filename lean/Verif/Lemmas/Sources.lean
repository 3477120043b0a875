import Verif.Spec.Sources
import Verif.Lemmas.Layout2
/-! What happens to objects which hand out labels while timeboards are made of them. -/
namespace TB
variable {L : Type}

@[simp] theorem Feeds.set_same (o : Feeds L) (i : Nat) (x : Feed L) : (o.set i x) i = x := by simp [Feeds.set]
theorem Feeds.set_other (o : Feeds L) {i j : Nat} (x : Feed L) (h : j ≠ i) : (o.set i x) j = o j := by simp [Feeds.set, h]

theorem Feeds.next_own {o : Feeds L} {id : Nat} {c : Cycle L} (h : o id = .own c) :
    o.next id = (c.next).map (fun r => (r.1, o.set id (.own r.2))) := by
  rw [Feeds.next]
  simp only [h]
  cases c.next <;> rfl

theorem Feeds.next_passing {o : Feeds L} {id src : Nat} {seen : List L} (h : o id = .passing src seen) (hlt : src < id) :
    o.next id = match o.next src with
      | some (x, o') => some (x, o'.set id (.passing src (seen ++ [x])))
      | none => ((Cycle.start seen).next).map (fun r => (r.1, o.set id (.own r.2))) := by
  rw [Feeds.next]
  simp only [h, if_pos hlt]
  cases o.next src with
  | none => cases (Cycle.start seen).next <;> rfl
  | some r => rfl

theorem Feeds.next_wrong {o : Feeds L} {id src : Nat} {seen : List L} (h : o id = .passing src seen) (hlt : ¬ src < id) : o.next id = none := by
  rw [Feeds.next]
  simp only [h, if_neg hlt]

/-- Drawing concerns objects made no later. -/
theorem Feeds.next_above {o o' : Feeds L} {id : Nat} {x : L} (h : o.next id = some (x, o')) {j : Nat} (hj : id < j) : o' j = o j := by
  induction id using Nat.strongRecOn generalizing o o' x with
  | _ id ih =>
    cases hi : o id with
    | own c =>
      rw [Feeds.next_own hi] at h
      cases hc : c.next with
      | none => rw [hc] at h; cases h
      | some r =>
        rw [hc] at h
        simp only [Option.map_some, Option.some.injEq, Prod.mk.injEq] at h
        rw [← h.2, Feeds.set_other _ _ (by omega)]
    | passing src seen =>
      by_cases hlt : src < id
      · rw [Feeds.next_passing hi hlt] at h
        cases hs : o.next src with
        | some r =>
          obtain ⟨y, p⟩ := r
          rw [hs] at h
          simp only [Option.some.injEq, Prod.mk.injEq] at h
          rw [← h.2, Feeds.set_other _ _ (by omega)]
          exact ih src hlt hs (by omega)
        | none =>
          rw [hs] at h
          cases hc : (Cycle.start seen).next with
          | none => rw [hc] at h; cases h
          | some r =>
            rw [hc] at h
            simp only [Option.map_some, Option.some.injEq, Prod.mk.injEq] at h
            rw [← h.2, Feeds.set_other _ _ (by omega)]
      · rw [Feeds.next_wrong hi hlt] at h; cases h

/-! ### Two sets of objects which hand out the same labels -/

/-- Whatever is drawn from the objects `G` on one side, is drawn from those with the corresponding names on the other. -/
structure Follows (G : Nat → Prop) (ρ : Nat → Nat) (R : Feeds L → Feeds L → Prop) : Prop where
  ends : ∀ {o o' id}, R o o' → G id → o.next id = none → o'.next (ρ id) = none
  gives : ∀ {o o' id x p}, R o o' → G id → o.next id = some (x, p) → ∃ q, o'.next (ρ id) = some (x, q) ∧ R p q

def Wrap.rename (ρ : Nat → Nat) : Wrap L → Wrap L
  | .passing i seen => .passing (ρ i) seen
  | .repeating c => .repeating c

def Wrap.Good (G : Nat → Prop) : Wrap L → Prop
  | .passing i _ => G i
  | .repeating _ => True

variable {G : Nat → Prop} {ρ : Nat → Nat} {R : Feeds L → Feeds L → Prop}

theorem Follows.wrap_next (hF : Follows G ρ R) {w : Wrap L} {o o' : Feeds L} (hw : w.Good G) (hR : R o o') :
    (w.nextO o = none → (w.rename ρ).nextO o' = none) ∧
    ∀ x w1 p, w.nextO o = some (x, w1, p) → w1.Good G ∧ ∃ q, (w.rename ρ).nextO o' = some (x, w1.rename ρ, q) ∧ R p q := by
  cases w with
  | repeating c =>
    simp only [Wrap.rename, Wrap.nextO]
    cases hc : c.next with
    | none => exact ⟨fun _ => rfl, fun _ _ _ h => nomatch h⟩
    | some r =>
      refine ⟨(fun h => nomatch h), ?_⟩
      intro x w1 p h
      simp only [Option.some.injEq, Prod.mk.injEq] at h
      obtain ⟨rfl, rfl, rfl⟩ := h
      exact ⟨trivial, o', rfl, hR⟩
  | passing i seen =>
    have hi : G i := hw
    simp only [Wrap.rename, Wrap.nextO]
    cases hn : o.next i with
    | some r =>
      obtain ⟨y, p'⟩ := r
      obtain ⟨q, q1, q2⟩ := hF.gives hR hi hn
      refine ⟨(fun h => nomatch h), ?_⟩
      intro x w1 p h
      simp only [Option.some.injEq, Prod.mk.injEq] at h
      obtain ⟨rfl, rfl, rfl⟩ := h
      exact ⟨hi, q, by simp [q1], q2⟩
    | none =>
      have h' := hF.ends hR hi hn
      simp only [h']
      cases hc : (Cycle.start seen).next with
      | none => exact ⟨fun _ => rfl, fun _ _ _ h => nomatch h⟩
      | some r =>
        refine ⟨(fun h => nomatch h), ?_⟩
        intro x w1 p h
        simp only [Option.some.injEq, Prod.mk.injEq] at h
        obtain ⟨rfl, rfl, rfl⟩ := h
        exact ⟨trivial, o', rfl, hR⟩

theorem Follows.wrap_take (hF : Follows G ρ R) : ∀ (n : Nat) {w : Wrap L} {o o' : Feeds L}, w.Good G → R o o' →
    (Wrap.takeO n w o = none → Wrap.takeO n (w.rename ρ) o' = none) ∧
    ∀ xs w1 p, Wrap.takeO n w o = some (xs, w1, p) → w1.Good G ∧ ∃ q, Wrap.takeO n (w.rename ρ) o' = some (xs, w1.rename ρ, q) ∧ R p q
  | 0, w, o, o', hw, hR => by
    refine ⟨fun h => by simp [Wrap.takeO] at h, ?_⟩
    intro xs w1 p h
    simp only [Wrap.takeO, Option.some.injEq, Prod.mk.injEq] at h
    obtain ⟨rfl, rfl, rfl⟩ := h
    exact ⟨hw, o', rfl, hR⟩
  | n + 1, w, o, o', hw, hR => by
    obtain ⟨k1, k2⟩ := hF.wrap_next hw hR
    unfold Wrap.takeO
    cases hn : w.nextO o with
    | none => simp [k1 hn]
    | some r =>
      obtain ⟨x, w1, p⟩ := r
      obtain ⟨g1, q, g2, g3⟩ := k2 x w1 p hn
      obtain ⟨m1, m2⟩ := hF.wrap_take n g1 g3
      simp only [g2]
      cases ht : Wrap.takeO n w1 p with
      | none => simp [m1 ht]
      | some r =>
        obtain ⟨xs, w2, p2⟩ := r
        obtain ⟨e1, q2, e2, e3⟩ := m2 xs w2 p2 ht
        refine ⟨(fun h => nomatch h), ?_⟩
        intro ys w3 p3 h
        simp only [Option.some.injEq, Prod.mk.injEq] at h
        obtain ⟨rfl, rfl, rfl⟩ := h
        exact ⟨e1, q2, by simp [e2], e3⟩

theorem Pattern.wrap_rename (p : Pattern L) : (p.rename ρ).wrap = p.wrap.rename ρ := by cases p <;> rfl

theorem Follows.skiperator (hF : Follows G ρ R) {p : Pattern L} {o o' : Feeds L} (hw : p.wrap.Good G) (hR : R o o') (skip n : Nat) :
    (skiperatorTakeO p skip n o = none → skiperatorTakeO (p.rename ρ) skip n o' = none) ∧
    ∀ xs r, skiperatorTakeO p skip n o = some (xs, r) → ∃ q, skiperatorTakeO (p.rename ρ) skip n o' = some (xs, q) ∧ R r q := by
  unfold skiperatorTakeO
  rw [Pattern.wrap_rename]
  obtain ⟨k1, k2⟩ := hF.wrap_take skip hw hR
  cases h : Wrap.takeO skip p.wrap o with
  | none => simp [k1 h]
  | some r =>
    obtain ⟨xs, w1, p1⟩ := r
    obtain ⟨g1, q, g2, g3⟩ := k2 _ _ _ h
    obtain ⟨m1, m2⟩ := hF.wrap_take n g1 g3
    simp only [g2]
    cases h2 : Wrap.takeO n w1 p1 with
    | none => simp [m1 h2]
    | some r2 =>
      obtain ⟨ys, w2, p2⟩ := r2
      obtain ⟨_, q2, e2, e3⟩ := m2 _ _ _ h2
      refine ⟨(fun h => nomatch h), ?_⟩
      intro zs r h
      simp only [Option.some.injEq, Prod.mk.injEq] at h
      obtain ⟨rfl, rfl⟩ := h
      exact ⟨q2, by simp [e2], e3⟩

/-- The arrays are the same and the objects correspond. -/
def FeedRel (R : Feeds L → Feeds L → Prop) (st st' : ObjState L) : Prop := st.labels = st'.labels ∧ st.mask = st'.mask ∧ R st.objs st'.objs

def TryRel (R : Feeds L → Feeds L → Prop) (p q : ObjTry L) : Prop :=
  ∀ s st st', FeedRel R st st' → FeedRel R (p s st).1 (q s st').1 ∧ (p s st).2 = (q s st').2

def TriesRel (R : Feeds L → Feeds L → Prop) : List (ObjTry L) → List (ObjTry L) → Prop
  | [], [] => True
  | p :: ps, q :: qs => TryRel R p q ∧ TriesRel R ps qs
  | _, _ => False

theorem Follows.pattern (hF : Follows G ρ R) {p : Pattern L} (hw : p.wrap.Good G) : TryRel R (applyPatternO p) (applyPatternO (p.rename ρ)) := by
  rintro s st st' ⟨r1, r2, r3⟩
  unfold applyPatternO
  split
  · exact ⟨⟨r1, r2, r3⟩, rfl⟩
  · obtain ⟨k1, k2⟩ := hF.skiperator hw r3 s.skipLeft.toNat (s.last + 1 - s.first).toNat
    cases h : skiperatorTakeO p s.skipLeft.toNat (s.last + 1 - s.first).toNat st.objs with
    | none => rw [k1 h]; exact ⟨⟨r1, r2, r3⟩, rfl⟩
    | some r =>
      obtain ⟨xs, o1⟩ := r
      obtain ⟨q, q1, q2⟩ := k2 _ _ h
      rw [q1]
      exact ⟨⟨by simp only [r1], r2, q2⟩, rfl⟩

theorem compound_rel (l : L) : TryRel R (makeCompoundO l) (makeCompoundO l) := by
  rintro s st st' ⟨r1, r2, r3⟩
  exact ⟨⟨by simp only [makeCompoundO, r1], by simp only [makeCompoundO, r2], r3⟩, rfl⟩

theorem zip_rel : ∀ (ss : List Span) {c d : Cycle (ObjTry L)} {st st' : ObjState L}, TriesRel R c.saved d.saved → TriesRel R c.rest d.rest →
    FeedRel R st st' → FeedRel R (zipO ss c st).1 (zipO ss d st').1 ∧ (zipO ss c st).2 = (zipO ss d st').2
  | [], _, _, _, _, _, _, hr => ⟨hr, rfl⟩
  | s :: ss, c, d, st, st', h1, h2, hr => by
    have hn : (c.next = none ∧ d.next = none) ∨ ∃ p q c' d', c.next = some (p, c') ∧ d.next = some (q, d') ∧ TryRel R p q ∧
        TriesRel R c'.saved d'.saved ∧ TriesRel R c'.rest d'.rest := by
      obtain ⟨cs, cr⟩ := c
      obtain ⟨ds, dr⟩ := d
      simp only at h1 h2
      cases cr with
      | cons p ps =>
        cases dr with
        | nil => exact absurd h2 (by simp [TriesRel])
        | cons q qs => exact .inr ⟨p, q, _, _, rfl, rfl, h2.1, h1, h2.2⟩
      | nil =>
        cases dr with
        | cons q qs => exact absurd h2 (by simp [TriesRel])
        | nil =>
          cases cs with
          | cons p ps =>
            cases ds with
            | nil => exact absurd h1 (by simp [TriesRel])
            | cons q qs => exact .inr ⟨p, q, _, _, rfl, rfl, h1.1, h1, h1.2⟩
          | nil =>
            cases ds with
            | nil => exact .inl ⟨rfl, rfl⟩
            | cons q qs => exact absurd h1 (by simp [TriesRel])
    unfold zipO
    rcases hn with ⟨e1, e2⟩ | ⟨p, q, c', d', e1, e2, e3, e4, e5⟩
    · rw [e1, e2]; exact ⟨hr, rfl⟩
    · rw [e1, e2]
      obtain ⟨g1, g2⟩ := e3 s st st' hr
      simp only
      generalize p s st = x at g1 g2 ⊢
      generalize q s st' = y at g1 g2 ⊢
      obtain ⟨x1, x2⟩ := x
      obtain ⟨y1, y2⟩ := y
      simp only at g1 g2
      subst g2
      cases x2 with
      | some e => exact ⟨g1, rfl⟩
      | none => exact zip_rel ss e4 e5 g1

theorem Follows.zip_labels (hF : Follows G ρ R) : ∀ (ss : List Span) {w : Wrap L} {st st' : ObjState L}, w.Good G → FeedRel R st st' →
    FeedRel R (zipLabelsO ss w st).1 (zipLabelsO ss (w.rename ρ) st').1 ∧ (zipLabelsO ss w st).2 = (zipLabelsO ss (w.rename ρ) st').2
  | [], _, _, _, _, hr => ⟨hr, rfl⟩
  | s :: ss, w, st, st', hw, hr => by
    obtain ⟨k1, k2⟩ := hF.wrap_next hw hr.2.2
    unfold zipLabelsO
    cases h : w.nextO st.objs with
    | none => rw [k1 h]; exact ⟨hr, rfl⟩
    | some r =>
      obtain ⟨x, w1, p⟩ := r
      obtain ⟨g1, q, g2, g3⟩ := k2 _ _ _ h
      rw [g2]
      simp only [makeCompoundO]
      exact hF.zip_labels ss g1 ⟨by simp only [hr.1], by simp only [hr.2.1], g3⟩

mutual
theorem Follows.run (hF : Follows G ρ R) (f : Frame) : ∀ (l : Layout L), (∀ i, l.UsesRP i → G i) → TryRel R (Layout.runO f l) (Layout.runO f (l.rename ρ))
  | .organizer cut elems, hl => by
    have h := hF.runAll f elems (fun l hm i hi => hl i (hi.elem hm))
    intro s st st' hr
    simp only [Layout.rename, Layout.runO]
    cases f.cutSpan cut s with
    | error e => exact ⟨hr, rfl⟩
    | ok spans => exact zip_rel spans h h hr
  | .organizerRP cut i, hl => by
    intro s st st' hr
    simp only [Layout.rename, Layout.runO]
    cases f.cutSpan cut s with
    | error e => exact ⟨hr, rfl⟩
    | ok spans => exact hF.zip_labels spans (w := .passing i []) (hl i (.inr ⟨cut, .here⟩)) hr
  | .pattern p, hl => by
    simp only [Layout.rename, Layout.runO]
    refine hF.pattern ?_
    cases p with
    | list xs => trivial
    | rp i => exact hl i (.inl .here)
  | .label l, hl => by
    simp only [Layout.rename, Layout.runO]
    exact compound_rel l

theorem Follows.runAll (hF : Follows G ρ R) (f : Frame) : ∀ (ls : List (Layout L)), (∀ l ∈ ls, ∀ i, l.UsesRP i → G i) →
    TriesRel R (Layout.runOAll f ls) (Layout.runOAll f (Layout.renameAll ρ ls))
  | [], _ => trivial
  | l :: ls, hl => ⟨hF.run f l (hl l (by simp)), hF.runAll f ls (fun l hm => hl l (by simp [hm]))⟩
end

theorem makeOrganizer_rename (l : Layout L) :
    (∀ e, makeOrganizer l = .error e → makeOrganizer (l.rename ρ) = .error e) ∧
    ∀ org, makeOrganizer l = .ok org → makeOrganizer (l.rename ρ) = .ok (org.rename ρ) ∧ ∀ i, org.UsesRP i → l.UsesRP i := by
  cases l with
  | organizer c es =>
    refine ⟨fun e h => by simp [makeOrganizer] at h, ?_⟩
    intro org h
    simp only [makeOrganizer, Except.ok.injEq] at h
    subst h
    exact ⟨by simp [makeOrganizer, Layout.rename], fun _ h => h⟩
  | organizerRP c i =>
    refine ⟨fun e h => by simp [makeOrganizer] at h, ?_⟩
    intro org h
    simp only [makeOrganizer, Except.ok.injEq] at h
    subst h
    exact ⟨by simp [makeOrganizer, Layout.rename], fun _ h => h⟩
  | label l =>
    refine ⟨fun e h => by simpa [makeOrganizer, Layout.rename] using h, ?_⟩
    intro org h
    simp [makeOrganizer] at h
  | pattern p =>
    cases p with
    | list xs =>
      refine ⟨fun e h => by simp [makeOrganizer] at h, ?_⟩
      intro org h
      simp only [makeOrganizer, Except.ok.injEq] at h
      subst h
      refine ⟨by simp [makeOrganizer, Layout.rename, Layout.renameAll, Pattern.rename], ?_⟩
      rintro i (h | ⟨c, h⟩)
      · cases h with
        | elem hm hw => simp at hm; subst hm; exact .inl hw
      · cases h with
        | elem hm hw => simp at hm; subst hm; exact .inr ⟨c, hw⟩
    | rp i =>
      refine ⟨fun e h => by simpa [makeOrganizer, Layout.rename, Pattern.rename] using h, ?_⟩
      intro org h
      simp [makeOrganizer] at h

/-- Timeboards made of objects which correspond are the same, and the objects correspond afterwards. -/
theorem Follows.attempt (hF : Follows G ρ R) (a : Args L) (ha : ∀ i, a.layout.UsesRP i → G i) {o o' : Feeds L} (hR : R o o') :
    R (Timeboard.attemptO a o).1 (Timeboard.attemptO { a with layout := a.layout.rename ρ } o').1 ∧
    (Timeboard.attemptO a o).2 = (Timeboard.attemptO { a with layout := a.layout.rename ρ } o').2 := by
  obtain ⟨m1, m2⟩ := makeOrganizer_rename (ρ := ρ) a.layout
  unfold Timeboard.attemptO
  simp only
  cases hm : makeOrganizer a.layout with
  | error e => rw [m1 e hm]; exact ⟨hR, rfl⟩
  | ok org =>
    obtain ⟨g1, g2⟩ := m2 org hm
    rw [g1]
    simp only
    split
    · exact ⟨hR, rfl⟩
    · cases Frame.new a.freq a.start a.stop with
      | error e => exact ⟨hR, rfl⟩
      | ok frame =>
        simp only
        obtain ⟨k1, k2⟩ := hF.run frame org (fun i hi => ha i (g2 i hi)) { first := 0, last := (frame.n : Int) - 1 }
          { labels := fun _ => a.defaultLabel, mask := fun _ => true, objs := o } { labels := fun _ => a.defaultLabel, mask := fun _ => true, objs := o' }
          ⟨rfl, rfl, hR⟩
        generalize Layout.runO frame org _ _ = x at k1 k2 ⊢
        generalize Layout.runO frame (org.rename ρ) _ _ = y at k1 k2 ⊢
        obtain ⟨x1, x2⟩ := x
        obtain ⟨y1, y2⟩ := y
        simp only at k1 k2
        subst k2
        obtain ⟨r1, r2, r3⟩ := k1
        cases x2 with
        | some e => exact ⟨r3, rfl⟩
        | none =>
          simp only [r1, r2]
          split
          · exact ⟨r3, rfl⟩
          · exact ⟨r3, rfl⟩

/-! ### Making a timeboard is drawing labels -/

theorem Feeds.draws_append : ∀ (is js : List Nat) (o : Feeds L), (o.draws (is ++ js)).2 = ((o.draws is).2.draws js).2
  | [], js, o => rfl
  | i :: is, js, o => by
    simp only [List.cons_append, Feeds.draws]
    cases o.next i with
    | none => exact Feeds.draws_append is js o
    | some r => exact Feeds.draws_append is js r.2

/-- The objects afterwards are those one gets by drawing from objects in `G`. -/
def Drawing (G : Nat → Prop) (o p : Feeds L) : Prop := ∃ ids : List Nat, (∀ i ∈ ids, G i) ∧ p = (o.draws ids).2

theorem Drawing.refl (o : Feeds L) : Drawing G o o := ⟨[], by simp, rfl⟩

theorem Drawing.trans {o p q : Feeds L} (h1 : Drawing G o p) (h2 : Drawing G p q) : Drawing G o q := by
  obtain ⟨is, a1, rfl⟩ := h1
  obtain ⟨js, b1, rfl⟩ := h2
  refine ⟨is ++ js, ?_, (Feeds.draws_append is js o).symm⟩
  intro i hi
  rcases List.mem_append.1 hi with h | h
  · exact a1 i h
  · exact b1 i h

theorem Drawing.mono {G' : Nat → Prop} {o p : Feeds L} (h : Drawing G o p) (hg : ∀ i, G i → G' i) : Drawing G' o p := by
  obtain ⟨is, a1, e⟩ := h
  exact ⟨is, fun i hi => hg i (a1 i hi), e⟩

theorem Drawing.next {o p : Feeds L} {i : Nat} {x : L} (hi : G i) (h : o.next i = some (x, p)) : Drawing G o p := by
  refine ⟨[i], by simpa using hi, ?_⟩
  simp [Feeds.draws, h]

theorem Drawing.wrap_next {w w1 : Wrap L} {o p : Feeds L} {x : L} (hw : w.Good G) (h : w.nextO o = some (x, w1, p)) : w1.Good G ∧ Drawing G o p := by
  cases w with
  | repeating c =>
    unfold Wrap.nextO at h
    simp only at h
    split at h
    · cases h
    · simp only [Option.some.injEq, Prod.mk.injEq] at h
      obtain ⟨_, rfl, rfl⟩ := h
      exact ⟨trivial, .refl _⟩
  | passing i seen =>
    unfold Wrap.nextO at h
    simp only at h
    split at h
    · rename_i x' o' hn
      simp only [Option.some.injEq, Prod.mk.injEq] at h
      obtain ⟨_, rfl, rfl⟩ := h
      exact ⟨hw, .next hw hn⟩
    · split at h
      · cases h
      · simp only [Option.some.injEq, Prod.mk.injEq] at h
        obtain ⟨_, rfl, rfl⟩ := h
        exact ⟨trivial, .refl _⟩

theorem Drawing.wrap_take : ∀ (n : Nat) {w w1 : Wrap L} {o p : Feeds L} {xs : List L}, w.Good G → Wrap.takeO n w o = some (xs, w1, p) →
    w1.Good G ∧ Drawing G o p
  | 0, w, w1, o, p, xs, hw, h => by
    simp only [Wrap.takeO, Option.some.injEq, Prod.mk.injEq] at h
    obtain ⟨_, rfl, rfl⟩ := h
    exact ⟨hw, .refl _⟩
  | n + 1, w, w1, o, p, xs, hw, h => by
    unfold Wrap.takeO at h
    split at h
    · cases h
    · rename_i x w' o' hn
      obtain ⟨g1, g2⟩ := Drawing.wrap_next hw hn
      split at h
      · cases h
      · rename_i ys w'' o'' ht
        simp only [Option.some.injEq, Prod.mk.injEq] at h
        obtain ⟨_, rfl, rfl⟩ := h
        obtain ⟨e1, e2⟩ := Drawing.wrap_take n g1 ht
        exact ⟨e1, g2.trans e2⟩

def TryDraws (G : Nat → Prop) (p : ObjTry L) : Prop := ∀ s st, Drawing G st.objs (p s st).1.objs

theorem TryDraws.pattern {p : Pattern L} (hp : p.wrap.Good G) : TryDraws G (applyPatternO p) := by
  intro s st
  unfold applyPatternO
  split
  · exact .refl _
  · split
    · exact .refl _
    · rename_i xs o' h
      unfold skiperatorTakeO at h
      split at h
      · cases h
      · rename_i ys w' o1 h1
        obtain ⟨g1, g2⟩ := Drawing.wrap_take _ hp h1
        split at h
        · cases h
        · rename_i zs w2 o2 h2
          simp only [Option.some.injEq, Prod.mk.injEq] at h
          obtain ⟨_, rfl⟩ := h
          exact g2.trans (Drawing.wrap_take _ g1 h2).2

theorem TryDraws.zip : ∀ (ss : List Span) {c : Cycle (ObjTry L)} {st : ObjState L}, (∀ p ∈ c.saved, TryDraws G p) → (∀ p ∈ c.rest, TryDraws G p) →
    Drawing G st.objs (zipO ss c st).1.objs
  | [], _, _, _, _ => .refl _
  | s :: ss, c, st, h1, h2 => by
    unfold zipO
    split
    · exact .refl _
    · rename_i step c' hn
      have hc : TryDraws G step ∧ (∀ p ∈ c'.saved, TryDraws G p) ∧ (∀ p ∈ c'.rest, TryDraws G p) := by
        obtain ⟨cs, cr⟩ := c
        simp only at h1 h2
        cases cr with
        | cons p ps =>
          simp only [Cycle.next, Option.some.injEq, Prod.mk.injEq] at hn
          obtain ⟨rfl, rfl⟩ := hn
          exact ⟨h2 _ (by simp), h1, fun q hq => h2 q (by simp [hq])⟩
        | nil =>
          cases cs with
          | nil => simp [Cycle.next] at hn
          | cons p ps =>
            simp only [Cycle.next, Option.some.injEq, Prod.mk.injEq] at hn
            obtain ⟨rfl, rfl⟩ := hn
            exact ⟨h1 _ (by simp), h1, fun q hq => h1 q (by simp [hq])⟩
      have hs := hc.1 s st
      split
      · rename_i st' e he
        rw [he] at hs; exact hs
      · rename_i st' he
        rw [he] at hs
        exact hs.trans (TryDraws.zip ss hc.2.1 hc.2.2)

theorem TryDraws.zip_labels : ∀ (ss : List Span) {w : Wrap L} {st : ObjState L}, w.Good G → Drawing G st.objs (zipLabelsO ss w st).1.objs
  | [], _, _, _ => .refl _
  | s :: ss, w, st, hw => by
    unfold zipLabelsO
    split
    · exact .refl _
    · rename_i l w' o' hn
      obtain ⟨g1, g2⟩ := Drawing.wrap_next hw hn
      simp only [makeCompoundO]
      exact g2.trans (TryDraws.zip_labels ss (st := { labels := _, mask := _, objs := o' }) g1)

mutual
theorem TryDraws.run (f : Frame) : ∀ (l : Layout L), (∀ i, l.UsesRP i → G i) → TryDraws G (Layout.runO f l)
  | .organizer cut elems, hl => by
    have h := TryDraws.runAll f elems (fun l hm i hi => hl i (hi.elem hm))
    intro s st
    simp only [Layout.runO]
    cases f.cutSpan cut s with
    | error e => exact .refl _
    | ok spans => exact TryDraws.zip spans h h
  | .organizerRP cut i, hl => by
    intro s st
    simp only [Layout.runO]
    cases f.cutSpan cut s with
    | error e => exact .refl _
    | ok spans => exact TryDraws.zip_labels spans (w := .passing i []) (hl i (.inr ⟨cut, .here⟩))
  | .pattern p, hl => by
    simp only [Layout.runO]
    refine TryDraws.pattern ?_
    cases p with
    | list xs => trivial
    | rp i => exact hl i (.inl .here)
  | .label l, hl => by
    intro s st
    simp only [Layout.runO]
    exact .refl _

theorem TryDraws.runAll (f : Frame) : ∀ (ls : List (Layout L)), (∀ l ∈ ls, ∀ i, l.UsesRP i → G i) → ∀ p ∈ Layout.runOAll f ls, TryDraws G p
  | [], _, p, hp => by simp [Layout.runOAll] at hp
  | l :: ls, hl, p, hp => by
    simp only [Layout.runOAll, List.mem_cons] at hp
    rcases hp with rfl | hp
    · exact TryDraws.run f l (hl l (by simp))
    · exact TryDraws.runAll f ls (fun l hm => hl l (by simp [hm])) p hp
end

/-- Making a timeboard is drawing from the objects of its layout. -/
theorem Timeboard.attemptO_draws (a : Args L) (o : Feeds L) : Drawing (fun i => a.layout.UsesRP i) o (Timeboard.attemptO a o).1 := by
  unfold Timeboard.attemptO
  cases hm : makeOrganizer a.layout with
  | error e => exact .refl _
  | ok org =>
    have g2 := ((makeOrganizer_rename (ρ := id) a.layout).2 org hm).2
    simp only
    split
    · exact .refl _
    · cases Frame.new a.freq a.start a.stop with
      | error e => exact .refl _
      | ok frame =>
        simp only
        have k := TryDraws.run (G := fun i => a.layout.UsesRP i) frame org g2 { first := 0, last := (frame.n : Int) - 1 }
          { labels := fun _ => a.defaultLabel, mask := fun _ => true, objs := o }
        generalize Layout.runO frame org _ _ = x at k ⊢
        obtain ⟨x1, x2⟩ := x
        cases x2 with
        | some e => exact k
        | none =>
          simp only
          split <;> exact k

end TB
