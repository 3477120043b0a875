import Verif.Lemmas.Sources
import Verif.Lemmas.Iterators3
import Verif.Lemmas.Attempt
import Verif.Props.ByHand
/-! Property C126: RememberingPatterns made of iterators and of each other. -/
namespace TB
open TB.Ex
variable {L : Type}

/-! ### What programs keep -/

/-- Objects do not change their sources, and cycles with labels in hand do not change the labels. -/
def Feeds.Kept (o p : Feeds L) : Prop :=
  ∀ j, (∀ src seen, p j = .passing src seen → ∃ seen', o j = .passing src seen') ∧ (∀ c, o j = .own c → ∃ c', p j = .own c' ∧ c'.saved = c.saved)

theorem Feeds.Kept.refl (o : Feeds L) : o.Kept o := fun _ => ⟨fun _ seen h => ⟨seen, h⟩, fun c h => ⟨c, h, rfl⟩⟩

theorem Feeds.Kept.trans {o p q : Feeds L} (h : o.Kept p) (h' : p.Kept q) : o.Kept q := by
  intro j
  refine ⟨?_, ?_⟩
  · intro src seen e
    obtain ⟨s1, e1⟩ := (h' j).1 _ _ e
    exact (h j).1 _ _ e1
  · intro c e
    obtain ⟨c1, e1, e2⟩ := (h j).2 _ e
    obtain ⟨c2, e3, e4⟩ := (h' j).2 _ e1
    exact ⟨c2, e3, e4.trans e2⟩

theorem Feeds.next_kept {o p : Feeds L} {id : Nat} {x : L} (h : o.next id = some (x, p)) : o.Kept p := by
  induction id using Nat.strongRecOn generalizing o p x with
  | _ id ih =>
    cases hi : o id with
    | own c =>
      rw [Feeds.next_own hi] at h
      cases hc : c.next with
      | none => rw [hc] at h; cases h
      | some r =>
        rw [hc] at h
        simp only [Option.map_some, Option.some.injEq, Prod.mk.injEq] at h
        rw [← h.2]
        intro j
        by_cases e : j = id
        · subst e
          simp only [Feeds.set_same]
          refine ⟨(fun _ _ e => nomatch e), fun c1 e => ⟨_, rfl, ?_⟩⟩
          rw [hi] at e; cases e
          exact Cycle.next_saved (x := r.1) hc
        · rw [Feeds.set_other _ _ e]; exact Feeds.Kept.refl o j
    | passing src seen =>
      by_cases hlt : src < id
      · rw [Feeds.next_passing hi hlt] at h
        cases hs : o.next src with
        | some r =>
          obtain ⟨y, p'⟩ := r
          rw [hs] at h
          simp only [Option.some.injEq, Prod.mk.injEq] at h
          rw [← h.2]
          intro j
          by_cases e : j = id
          · subst e
            simp only [Feeds.set_same]
            refine ⟨fun _ _ e => ⟨seen, by cases e; exact hi⟩, fun c1 e => ?_⟩
            rw [hi] at e; cases e
          · rw [Feeds.set_other _ _ e]; exact ih src hlt hs j
        | none =>
          rw [hs] at h
          cases hc : (Cycle.start seen).next with
          | none => rw [hc] at h; cases h
          | some r =>
            rw [hc] at h
            simp only [Option.map_some, Option.some.injEq, Prod.mk.injEq] at h
            rw [← h.2]
            intro j
            by_cases e : j = id
            · subst e
              simp only [Feeds.set_same]
              refine ⟨(fun _ _ e => nomatch e), fun c1 e => ?_⟩
              rw [hi] at e; cases e
            · rw [Feeds.set_other _ _ e]; exact Feeds.Kept.refl o j
      · rw [Feeds.next_wrong hi hlt] at h; cases h

theorem Feeds.draws_kept : ∀ (is : List Nat) (o : Feeds L), o.Kept (o.draws is).2
  | [], o => .refl o
  | i :: is, o => by
    simp only [Feeds.draws]
    cases h : o.next i with
    | none => exact Feeds.draws_kept is o
    | some r => exact (Feeds.next_kept h).trans (Feeds.draws_kept is r.2)

/-- What holds of all objects made by a program. -/
structure ObjWorld.Sound (w : ObjWorld L) : Prop where
  source : ∀ j src seen, w.objs j = .passing src seen → src < j ∧ j < w.kinds.length
  list : ∀ a xs, w.kinds[a]? = some (.list xs) → ∃ c, w.objs a = .own c ∧ c.saved = xs

theorem ObjWorld.Sound.kept {w : ObjWorld L} (h : w.Sound) {o : Feeds L} (hk : w.objs.Kept o) : ObjWorld.Sound { w with objs := o } := by
  refine ⟨?_, ?_⟩
  · intro j src seen e
    obtain ⟨s, e1⟩ := (hk j).1 _ _ e
    exact h.source j src s e1
  · intro a xs e
    obtain ⟨c, e1, e2⟩ := h.list a xs e
    obtain ⟨c', e3, e4⟩ := (hk a).2 _ e1
    exact ⟨c', e3, e4.trans e2⟩

theorem ObjWorld.Sound.make {w : ObjWorld L} (h : w.Sound) {k : ObjKind L} {f : Feed L}
    (h1 : ∀ src seen, f = .passing src seen → src < w.kinds.length) (h2 : ∀ xs, k = .list xs → ∃ c, f = .own c ∧ c.saved = xs) :
    ObjWorld.Sound { kinds := w.kinds ++ [k], objs := w.objs.set w.kinds.length f } := by
  refine ⟨?_, ?_⟩
  · intro j src seen e
    simp only [List.length_append, List.length_singleton] at e ⊢
    by_cases hj : j = w.kinds.length
    · subst hj
      simp only [Feeds.set_same] at e
      exact ⟨h1 _ _ e, by omega⟩
    · rw [Feeds.set_other _ _ hj] at e
      have := h.source j src seen e
      omega
  · intro a xs e
    simp only at e ⊢
    by_cases ha : a = w.kinds.length
    · subst ha
      rw [List.getElem?_append_right (Nat.le_refl _)] at e
      simp only [Nat.sub_self, List.getElem?_cons_zero, Option.some.injEq] at e
      simp only [Feeds.set_same]
      exact h2 xs e
    · have hlt : a < w.kinds.length := by
        have := (List.getElem?_eq_some_iff.1 e).1
        simp only [List.length_append, List.length_singleton] at this
        omega
      rw [List.getElem?_append_left hlt] at e
      rw [Feeds.set_other _ _ ha]
      exact h.list a xs e

/-- Building keeps the objects as they are, but for what is drawn. -/
theorem Timeboard.attemptO_kept (a : Args L) (o : Feeds L) : o.Kept (Timeboard.attemptO a o).1 := by
  obtain ⟨ids, _, e⟩ := Timeboard.attemptO_draws a o
  rw [e]
  exact Feeds.draws_kept ids o

theorem ObjWorld.step_build (w : ObjWorld L) (a : Args L) :
    w.step (.build a) = ({ w with objs := (Timeboard.attemptO a w.objs).1 },
      match (Timeboard.attemptO a w.objs).2 with
      | .error e => .raised e
      | .ok tb => .timeboard tb) := by
  unfold ObjWorld.step
  simp only
  split <;> simp_all

theorem ObjWorld.Sound.step {w : ObjWorld L} (h : w.Sound) (s : ObjStep L) : (w.step s).1.Sound := by
  cases s with
  | list xs => exact h.make (fun _ _ e => by cases e) (fun ys e => ⟨_, rfl, by cases e; rfl⟩)
  | iterator xs => exact h.make (fun _ _ e => by cases e) (fun ys e => by cases e)
  | remember src =>
    unfold ObjWorld.step
    simp only
    split
    · exact h.make (fun _ _ e => by cases e; assumption) (fun ys e => by cases e)
    · exact h
  | draw id =>
    unfold ObjWorld.step
    simp only
    split
    · exact h
    · rename_i hn; exact h.kept (Feeds.next_kept hn)
  | item id i => unfold ObjWorld.step; simp only; split <;> exact h
  | length id => unfold ObjWorld.step; simp only; split <;> exact h
  | truth id => unfold ObjWorld.step; simp only; split <;> exact h
  | build a => rw [ObjWorld.step_build]; exact h.kept (Timeboard.attemptO_kept a w.objs)

theorem ObjWorld.Sound.run : ∀ (ss : List (ObjStep L)) {w : ObjWorld L}, w.Sound → (ObjWorld.run ss w).1.Sound
  | [], _, h => h
  | s :: ss, _, h => ObjWorld.Sound.run ss (h.step s)

theorem ObjWorld.empty_sound : (ObjWorld.empty : ObjWorld L).Sound :=
  ⟨fun _ _ _ e => by simp [ObjWorld.empty] at e, fun _ _ e => by simp [ObjWorld.empty] at e⟩

theorem ObjWorld.step_looks (w : ObjWorld L) {s : ObjStep L} (h : s.Looks) : (w.step s).1 = w := by
  cases s with
  | item id i => unfold ObjWorld.step; simp only; split <;> rfl
  | length id => unfold ObjWorld.step; simp only; split <;> rfl
  | truth id => unfold ObjWorld.step; simp only; split <;> rfl
  | _ => exact absurd h (by simp [ObjStep.Looks])

/-! ### Programs on two sides -/

/-- The same steps (with other names of objects) on sides which correspond: the objects correspond afterwards, and the answers are the
same but for those to questions about the labels. -/
theorem ObjWorld.follow {G : Nat → Prop} {ρ : Nat → Nat} {R : Feeds L → Feeds L → Prop} (hF : Follows G ρ R) {m : Nat}
    (hown : ∀ {o o' N c}, R o o' → m ≤ N → R (o.set N (.own c)) (o'.set N (.own c)))
    (hpass : ∀ {o o' N src}, R o o' → m ≤ N → src < N → G src → ρ src < N ∧ R (o.set N (.passing src [])) (o'.set N (.passing (ρ src) [])))
    (hout : ∀ {N src}, m ≤ N → G src → (src < N ↔ ρ src < N)) :
    ∀ (ts : List (ObjStep L)) {w w' : ObjWorld L}, (∀ s ∈ ts, ∀ i, s.Uses i → G i) → w.kinds.length = w'.kinds.length → m ≤ w.kinds.length → R w.objs w'.objs →
      ∀ (j : Nat), (∀ s : ObjStep L, ts[j]? = some s → ¬ s.Looks) → (ObjWorld.run ts w).2[j]? = (ObjWorld.run (ts.map (ObjStep.rename ρ)) w').2[j]? := by
  intro ts
  induction ts with
  | nil => intro w w' _ _ _ _ j _; rfl
  | cons s ts ih =>
    intro w w' hts hlen hm hR j hj
    have key : (w.step s).1.kinds.length = (w'.step (s.rename ρ)).1.kinds.length ∧ m ≤ (w.step s).1.kinds.length ∧
        R (w.step s).1.objs (w'.step (s.rename ρ)).1.objs ∧ (¬ s.Looks → (w.step s).2 = (w'.step (s.rename ρ)).2) := by
      have hg := hts s (by simp)
      by_cases hl : s.Looks
      · have hl' : (s.rename ρ).Looks := by cases s <;> first | exact hl | exact absurd hl (by simp [ObjStep.Looks])
        rw [ObjWorld.step_looks _ hl, ObjWorld.step_looks _ hl']
        exact ⟨hlen, hm, hR, fun h => absurd hl h⟩
      · cases s with
        | list xs =>
          simp only [ObjStep.rename, ObjWorld.step, List.length_append, List.length_singleton, hlen]
          exact ⟨trivial, by omega, hown hR (by omega), by simp⟩
        | iterator xs =>
          simp only [ObjStep.rename, ObjWorld.step, List.length_append, List.length_singleton, hlen]
          exact ⟨trivial, by omega, hown hR (by omega), by simp⟩
        | remember src =>
          have hs : G src := hg src rfl
          by_cases hlt : src < w.kinds.length
          · obtain ⟨k1, k2⟩ := hpass hR hm hlt hs
            simp only [ObjStep.rename, ObjWorld.step, if_pos hlt, if_pos (hlen ▸ k1 : ρ src < w'.kinds.length)]
            simp only [List.length_append, List.length_singleton, ← hlen]
            exact ⟨trivial, by omega, k2, by simp⟩
          · have hlt' : ¬ ρ src < w'.kinds.length := by rw [← hlen, ← hout hm hs]; exact hlt
            simp only [ObjStep.rename, ObjWorld.step, if_neg hlt, if_neg hlt']
            exact ⟨hlen, hm, hR, by simp⟩
        | draw id =>
          have hs : G id := hg id rfl
          simp only [ObjStep.rename, ObjWorld.step]
          cases hn : w.objs.next id with
          | none => rw [hF.ends hR hs hn]; exact ⟨hlen, hm, hR, fun _ => rfl⟩
          | some r =>
            obtain ⟨x, p⟩ := r
            obtain ⟨q, q1, q2⟩ := hF.gives hR hs hn
            rw [q1]
            exact ⟨hlen, hm, q2, fun _ => rfl⟩
        | build a =>
          have := hF.attempt a (fun i hi => hg i hi) hR
          simp only [ObjStep.rename]
          rw [ObjWorld.step_build, ObjWorld.step_build, this.2]
          exact ⟨hlen, hm, this.1, fun _ => rfl⟩
        | item id i => exact absurd trivial hl
        | length id => exact absurd trivial hl
        | truth id => exact absurd trivial hl
    obtain ⟨k1, k2, k3, k4⟩ := key
    simp only [List.map_cons, ObjWorld.run]
    cases j with
    | zero => simp only [List.getElem?_cons_zero]; rw [k4 (hj s (by simp))]
    | succ j =>
      simp only [List.getElem?_cons_succ]
      exact ih (fun s hs => hts s (by simp [hs])) k1 k2 k3 j (fun s hs => hj s (by simpa using hs))

/-! ### A RememberingPattern of an iterator -/

/-- Object `n + 1` is made of the iterator `n` of the labels `xs` on one side, and of the list of these labels on the other. -/
def LikeList (n : Nat) (xs : List L) (o o' : Feeds L) : Prop :=
  (∀ j, j ≠ n → j ≠ n + 1 → o j = o' j ∧ ∀ seen, o j ≠ .passing n seen) ∧
  ((∃ seen left, o n = .own (Cycle.once left) ∧ o (n + 1) = .passing n seen ∧ o' (n + 1) = .own { saved := xs, rest := left } ∧ seen ++ left = xs) ∨
    ∃ c, o (n + 1) = .own c ∧ o' (n + 1) = .own c)

theorem LikeList.set {n : Nat} {xs : List L} {o o' : Feeds L} (h : LikeList n xs o o') {j : Nat} (h1 : j ≠ n) (h2 : j ≠ n + 1) {f : Feed L}
    (hf : ∀ seen, f ≠ .passing n seen) : LikeList n xs (o.set j f) (o'.set j f) := by
  obtain ⟨k1, k2⟩ := h
  refine ⟨?_, ?_⟩
  · intro i i1 i2
    by_cases e : i = j
    · subst e; simp only [Feeds.set_same]; exact ⟨trivial, hf⟩
    · rw [Feeds.set_other _ _ e, Feeds.set_other _ _ e]; exact k1 i i1 i2
  · rw [Feeds.set_other _ _ (Ne.symm h1), Feeds.set_other _ _ (Ne.symm h2), Feeds.set_other _ _ (Ne.symm h2)]
    exact k2

theorem likeList_follows (n : Nat) (xs : List L) : Follows (fun i => i ≠ n) id (LikeList (L := L) n xs) := by
  have key : ∀ (i : Nat) (o o' : Feeds L), LikeList n xs o o' → i ≠ n → (o.next i = none → o'.next i = none) ∧
      (∀ x p, o.next i = some (x, p) → ∃ q, o'.next i = some (x, q) ∧ LikeList n xs p q) := by
    intro i
    induction i using Nat.strongRecOn with
    | _ i ih =>
      intro o o' hR hi
      obtain ⟨k1, k2⟩ := hR
      by_cases h1 : i = n + 1
      · subst h1
        rcases k2 with ⟨seen, left, e1, e2, e3, e4⟩ | ⟨c, e1, e2⟩
        · rw [Feeds.next_passing e2 (by omega), Feeds.next_own e3, Feeds.next_own e1]
          cases left with
          | cons y ys =>
            simp only [Cycle.once, Cycle.next, Option.map_some]
            refine ⟨(fun h => nomatch h), ?_⟩
            intro x p h
            simp only [Option.some.injEq, Prod.mk.injEq] at h
            obtain ⟨rfl, rfl⟩ := h
            refine ⟨_, rfl, ?_, .inl ⟨seen ++ [y], ys, ?_, by simp, by simp, by simpa using e4⟩⟩
            · intro j j1 j2
              rw [Feeds.set_other _ _ j2, Feeds.set_other _ _ j1, Feeds.set_other _ _ j2]
              exact k1 j j1 j2
            · rw [Feeds.set_other _ _ (by omega)]; simp [Cycle.once]
          | nil =>
            simp only [List.append_nil] at e4
            subst e4
            cases seen with
            | nil => simp [Cycle.once, Cycle.start, Cycle.next]
            | cons y ys =>
              simp only [Cycle.once, Cycle.start, Cycle.next, Option.map_none, Option.map_some]
              refine ⟨(fun h => nomatch h), ?_⟩
              intro x p h
              simp only [Option.some.injEq, Prod.mk.injEq] at h
              obtain ⟨rfl, rfl⟩ := h
              refine ⟨_, rfl, ?_, .inr ⟨_, Feeds.set_same _ _ _, Feeds.set_same _ _ _⟩⟩
              intro j j1 j2
              rw [Feeds.set_other _ _ j2, Feeds.set_other _ _ j2]
              exact k1 j j1 j2
        · rw [Feeds.next_own e1, Feeds.next_own e2]
          cases c.next with
          | none => simp
          | some r =>
            refine ⟨(fun h => nomatch h), ?_⟩
            intro x p h
            simp only [Option.map_some, Option.some.injEq, Prod.mk.injEq] at h
            obtain ⟨rfl, rfl⟩ := h
            refine ⟨_, rfl, ?_, .inr ⟨_, Feeds.set_same _ _ _, Feeds.set_same _ _ _⟩⟩
            intro j j1 j2
            rw [Feeds.set_other _ _ j2, Feeds.set_other _ _ j2]
            exact k1 j j1 j2
      · obtain ⟨g1, g2⟩ := k1 i hi h1
        cases ho : o i with
        | own c =>
          rw [Feeds.next_own ho, Feeds.next_own (g1 ▸ ho)]
          cases c.next with
          | none => simp
          | some r =>
            refine ⟨(fun h => nomatch h), ?_⟩
            intro x p h
            simp only [Option.map_some, Option.some.injEq, Prod.mk.injEq] at h
            obtain ⟨rfl, rfl⟩ := h
            exact ⟨_, rfl, LikeList.set ⟨k1, k2⟩ hi h1 (fun _ e => nomatch e)⟩
        | passing src seen =>
          have hsrc : src ≠ n := by
            rintro rfl
            exact g2 seen ho
          by_cases hlt : src < i
          · obtain ⟨m1, m2⟩ := ih src hlt o o' ⟨k1, k2⟩ hsrc
            rw [Feeds.next_passing ho hlt, Feeds.next_passing (g1 ▸ ho) hlt]
            cases hs : o.next src with
            | some r =>
              obtain ⟨y, p1⟩ := r
              obtain ⟨q, q1, q2⟩ := m2 _ _ hs
              rw [q1]
              refine ⟨(fun h => nomatch h), ?_⟩
              intro x p h
              simp only [Option.some.injEq, Prod.mk.injEq] at h
              obtain ⟨rfl, rfl⟩ := h
              exact ⟨_, rfl, q2.set hi h1 (fun _ e => hsrc (by injection e))⟩
            | none =>
              rw [m1 hs]
              cases (Cycle.start seen).next with
              | none => simp
              | some r =>
                refine ⟨(fun h => nomatch h), ?_⟩
                intro x p h
                simp only [Option.map_some, Option.some.injEq, Prod.mk.injEq] at h
                obtain ⟨rfl, rfl⟩ := h
                exact ⟨_, rfl, LikeList.set ⟨k1, k2⟩ hi h1 (fun _ e => nomatch e)⟩
          · rw [Feeds.next_wrong ho hlt, Feeds.next_wrong (g1 ▸ ho) hlt]
            simp
  exact ⟨fun {o o' i} h hi => (key i o o' h hi).1, fun {o o' i _ _} h hi => (key i o o' h hi).2 _ _⟩

mutual
theorem Layout.rename_id : ∀ l : Layout L, l.rename id = l
  | .organizer c es => by simp only [Layout.rename, Layout.renameAll_id es]
  | .organizerRP c i => rfl
  | .pattern (.list xs) => rfl
  | .pattern (.rp i) => rfl
  | .label l => rfl

theorem Layout.renameAll_id : ∀ ls : List (Layout L), Layout.renameAll id ls = ls
  | [] => rfl
  | l :: ls => by simp only [Layout.renameAll, Layout.rename_id l, Layout.renameAll_id ls]
end

theorem ObjStep.rename_id (s : ObjStep L) : s.rename id = s := by
  cases s <;> simp only [ObjStep.rename, id, Layout.rename_id]

/-- **C126**, a RememberingPattern made of an iterator which is not used otherwise is like one made of the list of its labels: in whatever
else the program does (making timeboards of it, taking labels by hand, making RememberingPatterns of it), the answers are the same. What is missing: `length`,
`bool` and `rp[i]` are as for the list too (they are not, `C126_negation`). -/
theorem C126_like_list_partial (ss ts : List (ObjStep L)) (xs : List L) :
    let w := (ObjWorld.run ss ObjWorld.empty).1
    let n := w.kinds.length
    (∀ s ∈ ts, ¬ s.Uses n) →
    let r := ObjWorld.run (.iterator xs :: .remember n :: ts) w
    let r' := ObjWorld.run (.iterator xs :: .list xs :: ts) w
    (∃ rest, r.2 = .object n :: .object (n + 1) :: rest) ∧
    ∀ j : Nat, (∀ s : ObjStep L, (.iterator xs :: .list xs :: ts : List (ObjStep L))[j]? = some s → ¬ s.Looks) → r.2[j]? = r'.2[j]? := by
  intro w n hts r r'
  have hw : w.Sound := ObjWorld.Sound.run ss ObjWorld.empty_sound
  have hr : r = ((ObjWorld.run ts { kinds := w.kinds ++ [.iterator] ++ [.of n], objs := (w.objs.set n (.own (Cycle.once xs))).set (n + 1) (.passing n []) }).1,
      .object n :: .object (n + 1) :: (ObjWorld.run ts { kinds := w.kinds ++ [.iterator] ++ [.of n], objs := (w.objs.set n (.own (Cycle.once xs))).set (n + 1) (.passing n []) }).2) := by
    have : n < (w.kinds ++ [ObjKind.iterator]).length := by simp [n]
    simp only [r, ObjWorld.run, ObjWorld.step, if_pos this]
    simp [n]
  have hr' : r'.2 = .object n :: .object (n + 1) :: (ObjWorld.run ts { kinds := w.kinds ++ [.iterator] ++ [.list xs], objs := (w.objs.set n (.own (Cycle.once xs))).set (n + 1) (.own (Cycle.start xs)) }).2 := by
    simp only [r', ObjWorld.run, ObjWorld.step]
    simp [n]
  rw [hr, hr']
  refine ⟨⟨_, rfl⟩, ?_⟩
  intro j hj
  match j with
  | 0 => rfl
  | 1 => rfl
  | j + 2 =>
    simp only [List.getElem?_cons_succ] at hj ⊢
    have hid : ts.map (ObjStep.rename id) = ts := by
      rw [show (ObjStep.rename id : ObjStep L → ObjStep L) = id from funext ObjStep.rename_id]; simp
    have := ObjWorld.follow (likeList_follows n xs) (m := n + 2)
      (fun {o o' N c} h hN => h.set (by omega) (by omega) (fun _ e => nomatch e))
      (fun {o o' N src} h hN hlt hg => ⟨hlt, h.set (by omega) (by omega) (fun _ e => hg (by injection e))⟩)
      (fun {N src} _ _ => Iff.rfl) ts
      (w := { kinds := w.kinds ++ [.iterator] ++ [.of n], objs := (w.objs.set n (.own (Cycle.once xs))).set (n + 1) (.passing n []) })
      (w' := { kinds := w.kinds ++ [.iterator] ++ [.list xs], objs := (w.objs.set n (.own (Cycle.once xs))).set (n + 1) (.own (Cycle.start xs)) })
      (fun s hs i hi e => hts s hs (e ▸ hi)) (by simp) (by simp [n]) ?_ j hj
    · rw [hid] at this; exact this
    · refine ⟨?_, .inl ⟨[], xs, ?_, by simp, by simp [Cycle.start], rfl⟩⟩
      · intro i i1 i2
        simp only
        rw [Feeds.set_other _ _ i2, Feeds.set_other _ _ i1, Feeds.set_other _ _ i2, Feeds.set_other _ _ i1]
        refine ⟨rfl, ?_⟩
        intro seen e
        have := hw.source i n seen e
        omega
      · simp only
        rw [Feeds.set_other _ _ (by omega)]; simp

/-! ### A RememberingPattern of a RememberingPattern -/

def Feed.rename (ρ : Nat → Nat) : Feed L → Feed L
  | .own c => .own c
  | .passing src seen => .passing (ρ src) seen

/-- Say `a` instead of `n`. -/
def instead (n a : Nat) : Nat → Nat := fun i => if i = n then a else i

/-- Object `n` is made of the endless object `a`; on the other side `a` is used in its place. -/
def AliasOf (n a : Nat) (o o' : Feeds L) : Prop :=
  a < n ∧ (∃ seen, o n = .passing a seen) ∧ (∃ c, o a = .own c ∧ c.saved ≠ []) ∧ (∀ j, j ≠ n → o' j = (o j).rename (instead n a)) ∧
  ∀ j src seen, o j = .passing src seen → src < j

theorem instead_lt {n a i j : Nat} (h : a < n) (hi : i < j) : instead n a i < j := by
  unfold instead; split <;> omega

theorem AliasOf.set {n a : Nat} {o o' : Feeds L} (h : AliasOf n a o o') {j : Nat} (h1 : j ≠ n) {f : Feed L}
    (hf : j = a → ∃ c, f = .own c ∧ c.saved ≠ []) (hs : ∀ src seen, f = .passing src seen → src < j) :
    AliasOf n a (o.set j f) (o'.set j (f.rename (instead n a))) := by
  obtain ⟨k1, ⟨seen, k2⟩, ⟨c, k3, k4⟩, k5, k6⟩ := h
  refine ⟨k1, ⟨seen, by rw [Feeds.set_other _ _ (Ne.symm h1)]; exact k2⟩, ?_, ?_, ?_⟩
  · by_cases e : a = j
    · subst e
      obtain ⟨c', e1, e2⟩ := hf rfl
      exact ⟨c', by rw [Feeds.set_same]; exact e1, e2⟩
    · exact ⟨c, by rw [Feeds.set_other _ _ e]; exact k3, k4⟩
  · intro i hi
    by_cases e : i = j
    · subst e; rw [Feeds.set_same, Feeds.set_same]
    · rw [Feeds.set_other _ _ e, Feeds.set_other _ _ e]; exact k5 i hi
  · intro i src seen e
    by_cases e' : i = j
    · subst e'; rw [Feeds.set_same] at e; exact hs _ _ e
    · rw [Feeds.set_other _ _ e'] at e; exact k6 _ _ _ e

theorem Cycle.next_of_saved {c : Cycle L} (h : c.saved ≠ []) : ∃ x c', c.next = some (x, c') ∧ c'.saved = c.saved := by
  obtain ⟨s, r⟩ := c
  cases r with
  | cons x xs => exact ⟨x, _, rfl, rfl⟩
  | nil =>
    cases s with
    | nil => exact absurd rfl h
    | cons x xs => exact ⟨x, _, rfl, rfl⟩

theorem aliasOf_follows (n a : Nat) : Follows (fun _ => True) (instead n a) (AliasOf (L := L) n a) := by
  have key : ∀ (i : Nat) (o o' : Feeds L), AliasOf n a o o' → (o.next i = none → o'.next (instead n a i) = none) ∧
      (∀ x p, o.next i = some (x, p) → ∃ q, o'.next (instead n a i) = some (x, q) ∧ AliasOf n a p q) := by
    intro i
    induction i using Nat.strongRecOn with
    | _ i ih =>
      intro o o' hR
      have hR' := hR
      obtain ⟨k1, ⟨seen, k2⟩, ⟨c, k3, k4⟩, k5, k6⟩ := hR'
      have hoa : o' a = .own c := by rw [k5 a (by omega), k3]; rfl
      obtain ⟨y, c', n1, n2⟩ := Cycle.next_of_saved k4
      by_cases h1 : i = n
      · subst h1
        have e1 : instead i a i = a := by simp [instead]
        rw [e1, Feeds.next_passing k2 k1, Feeds.next_own k3, Feeds.next_own hoa, n1]
        simp only [Option.map_some]
        refine ⟨(fun h => nomatch h), ?_⟩
        intro x p h
        simp only [Option.some.injEq, Prod.mk.injEq] at h
        obtain ⟨rfl, rfl⟩ := h
        refine ⟨_, rfl, k1, ⟨_, Feeds.set_same _ _ _⟩, ⟨c', ?_, by rw [n2]; exact k4⟩, ?_, ?_⟩
        · rw [Feeds.set_other _ _ (by omega), Feeds.set_same]
        · intro j hj
          rw [Feeds.set_other _ _ hj]
          by_cases e : j = a
          · subst e; rw [Feeds.set_same, Feeds.set_same]; rfl
          · rw [Feeds.set_other _ _ e, Feeds.set_other _ _ e]; exact k5 j hj
        · intro j src s e
          by_cases e' : j = i
          · subst e'; rw [Feeds.set_same] at e; cases e; exact k1
          · rw [Feeds.set_other _ _ e'] at e
            by_cases e2 : j = a
            · subst e2; rw [Feeds.set_same] at e; cases e
            · rw [Feeds.set_other _ _ e2] at e; exact k6 _ _ _ e
      · have e1 : instead n a i = i := by simp [instead, h1]
        have ho' := k5 i h1
        rw [e1]
        cases ho : o i with
        | own d =>
          rw [ho] at ho'
          rw [Feeds.next_own ho, Feeds.next_own (c := d) ho']
          cases hd : d.next with
          | none => simp
          | some r =>
            refine ⟨(fun h => nomatch h), ?_⟩
            intro x p h
            simp only [Option.map_some, Option.some.injEq, Prod.mk.injEq] at h
            obtain ⟨rfl, rfl⟩ := h
            refine ⟨_, rfl, hR.set (f := .own r.2) h1 ?_ (fun _ _ e => nomatch e)⟩
            rintro rfl
            rw [ho] at k3; cases k3
            exact ⟨_, rfl, by rw [Cycle.next_saved (x := r.1) hd]; exact k4⟩
        | passing src sn =>
          have hlt := k6 _ _ _ ho
          have hia : i ≠ a := by rintro rfl; rw [ho] at k3; cases k3
          rw [ho] at ho'
          obtain ⟨m1, m2⟩ := ih src hlt o o' hR
          rw [Feeds.next_passing ho hlt, Feeds.next_passing (src := instead n a src) (seen := sn) ho' (instead_lt k1 hlt)]
          cases hs : o.next src with
          | some r =>
            obtain ⟨z, p1⟩ := r
            obtain ⟨q, q1, q2⟩ := m2 _ _ hs
            rw [q1]
            refine ⟨(fun h => nomatch h), ?_⟩
            intro x p h
            simp only [Option.some.injEq, Prod.mk.injEq] at h
            obtain ⟨rfl, rfl⟩ := h
            exact ⟨_, rfl, q2.set (f := .passing src (sn ++ [z])) h1 (fun e => absurd e hia) (fun _ _ e => by cases e; exact hlt)⟩
          | none =>
            rw [m1 hs]
            cases (Cycle.start sn).next with
            | none => simp
            | some r =>
              refine ⟨(fun h => nomatch h), ?_⟩
              intro x p h
              simp only [Option.map_some, Option.some.injEq, Prod.mk.injEq] at h
              obtain ⟨rfl, rfl⟩ := h
              exact ⟨_, rfl, hR.set (f := .own r.2) h1 (fun e => absurd e hia) (fun _ _ e => nomatch e)⟩
  exact ⟨fun {o o' i} h _ => (key i o o' h).1, fun {o o' i _ _} h _ => (key i o o' h).2 _ _⟩

/-- **C126**, a RememberingPattern `n` made of a RememberingPattern `a` of a list of labels is as good as `a` itself: labels drawn from one
are gone for the other. The program on the right says `a` wherever the program on the left says `n` (a RememberingPattern without labels is made in its
place, in order that the numbers of objects made later are the same). -/
theorem C126_of_another (ss ts : List (ObjStep L)) {a : Nat} {xs : List L} (hx : xs ≠ []) :
    let w := (ObjWorld.run ss ObjWorld.empty).1
    let n := w.kinds.length
    w.kinds[a]? = some (.list xs) →
    let r := ObjWorld.run (.remember a :: ts) w
    let r' := ObjWorld.run (.list [] :: ts.map (ObjStep.rename (fun i => if i = n then a else i))) w
    (∃ rest, r.2 = .object n :: rest) ∧
    ∀ j : Nat, (∀ s : ObjStep L, (.remember a :: ts : List (ObjStep L))[j]? = some s → ¬ s.Looks) → r.2[j]? = r'.2[j]? := by
  intro w n hk r r'
  have hw : w.Sound := ObjWorld.Sound.run ss ObjWorld.empty_sound
  have han : a < n := (List.getElem?_eq_some_iff.1 hk).1
  have hr : r.2 = .object n :: (ObjWorld.run ts { kinds := w.kinds ++ [.of a], objs := w.objs.set n (.passing a []) }).2 := by
    simp only [r, ObjWorld.run, ObjWorld.step, if_pos (show a < w.kinds.length from han)]
    rfl
  have hr' : r'.2 = .object n :: (ObjWorld.run (ts.map (ObjStep.rename (instead n a))) { kinds := w.kinds ++ [.list []], objs := w.objs.set n (.own (Cycle.start [])) }).2 := rfl
  rw [hr, hr']
  refine ⟨⟨_, rfl⟩, ?_⟩
  intro j hj
  match j with
  | 0 => rfl
  | j + 1 =>
    simp only [List.getElem?_cons_succ] at hj ⊢
    obtain ⟨c, c1, c2⟩ := hw.list a xs hk
    refine ObjWorld.follow (aliasOf_follows n a) (m := n + 1) ?_ ?_ ?_ ts
      (w := { kinds := w.kinds ++ [.of a], objs := w.objs.set n (.passing a []) })
      (w' := { kinds := w.kinds ++ [.list []], objs := w.objs.set n (.own (Cycle.start [])) })
      (fun _ _ _ _ => trivial) (by simp) (by simp [n]) ?_ j hj
    · intro o o' N c h hN
      exact h.set (f := .own c) (by omega) (fun e => by omega) (fun _ _ e => nomatch e)
    · intro o o' N src h hN hlt _
      exact ⟨instead_lt han hlt, h.set (f := .passing src []) (by omega) (fun e => by omega) (fun _ _ e => by cases e; exact hlt)⟩
    · intro N src hN _
      unfold instead
      split
      · omega
      · rfl
    · refine ⟨han, ⟨_, Feeds.set_same _ _ _⟩, ⟨c, ?_, by rw [c2]; exact hx⟩, ?_, ?_⟩
      · simp only
        rw [Feeds.set_other _ _ (by omega)]; exact c1
      · intro i hi
        simp only
        rw [Feeds.set_other _ _ hi, Feeds.set_other _ _ hi]
        cases ho : w.objs i with
        | own d => rfl
        | passing src seen =>
          have := hw.source _ _ _ ho
          have : src ≠ n := by omega
          simp [Feed.rename, instead, this]
      · intro i src seen e
        simp only at e
        by_cases hi : i = n
        · subst hi; rw [Feeds.set_same] at e; cases e; exact han
        · rw [Feeds.set_other _ _ hi] at e
          exact (hw.source _ _ _ e).1

/-! ### Several RememberingPatterns of one iterator -/

theorem shareOf_cons (x : L) (xs : List L) (d : Nat) (ds : List Nat) (i : Nat) :
    shareOf (x :: xs) (d :: ds) i = if d = i then x :: shareOf xs ds i else shareOf xs ds i := by
  unfold shareOf
  by_cases h : d = i <;> simp [h]

/-- While the iterator has labels. -/
theorem shared_first {n : Nat} : ∀ (ds : List Nat) (xs : List L) (o : Feeds L) (got : Nat → List L), ds.length ≤ xs.length → o n = .own (Cycle.once xs) →
    (∀ i ∈ ds, i ≠ n → n < i) → (∀ i, n < i → o i = .passing n (got i) ∨ i ∉ ds) →
    (o.draws ds).1 = (xs.take ds.length).map some ∧ (o.draws ds).2 n = .own (Cycle.once (xs.drop ds.length)) ∧
    ∀ i, n < i → (o i = .passing n (got i) → (o.draws ds).2 i = .passing n (got i ++ shareOf xs ds i))
  | [], xs, o, got, _, hn, _, _ => by
    refine ⟨by simp [Feeds.draws], by simpa [Feeds.draws] using hn, ?_⟩
    intro i _ h
    simpa [Feeds.draws, shareOf] using h
  | d :: ds, [], o, got, hl, _, _, _ => by simp at hl
  | d :: ds, x :: xs, o, got, hl, hn, hd, hg => by
    have h1 : o.next n = some (x, o.set n (.own (Cycle.once xs))) := by rw [Feeds.next_own hn]; rfl
    by_cases e : d = n
    · subst e
      have ih := shared_first (n := d) ds xs (o.set d (.own (Cycle.once xs))) got (by simpa using hl) (by simp)
        (fun i hi => hd i (by simp [hi])) (fun i hi => by
          rw [Feeds.set_other _ _ (by omega)]
          rcases hg i hi with h | h
          · exact .inl h
          · exact .inr (fun hm => h (by simp [hm])))
      simp only [Feeds.draws, h1, List.length_cons, List.take_succ_cons, List.map_cons, List.drop_succ_cons]
      refine ⟨by rw [ih.1], ih.2.1, ?_⟩
      intro i hi h
      rw [ih.2.2 i hi (by rw [Feeds.set_other _ _ (by omega)]; exact h), shareOf_cons, if_neg (by omega)]
    · have hlt := hd d (by simp) e
      have ho : o d = .passing n (got d) := by
        rcases hg d hlt with h | h
        · exact h
        · exact absurd (by simp) h
      have h2 : o.next d = some (x, (o.set n (.own (Cycle.once xs))).set d (.passing n (got d ++ [x]))) := by
        rw [Feeds.next_passing ho hlt, h1]
      have ih := shared_first (n := n) ds xs ((o.set n (.own (Cycle.once xs))).set d (.passing n (got d ++ [x])))
        (fun i => if i = d then got d ++ [x] else got i) (by simpa using hl) (by rw [Feeds.set_other _ _ (by omega)]; simp)
        (fun i hi => hd i (by simp [hi])) (fun i hi => by
          by_cases e2 : i = d
          · subst e2; left; simp
          · rw [Feeds.set_other _ _ e2, Feeds.set_other _ _ (by omega)]
            simp only [if_neg e2]
            rcases hg i hi with h | h
            · exact .inl h
            · exact .inr (fun hm => h (by simp [hm])))
      simp only [Feeds.draws, h2, List.length_cons, List.take_succ_cons, List.map_cons, List.drop_succ_cons]
      refine ⟨by rw [ih.1], ih.2.1, ?_⟩
      intro i hi h
      by_cases e2 : i = d
      · subst e2
        rw [ih.2.2 i hi (by simp), shareOf_cons, if_pos rfl]
        simp
      · rw [ih.2.2 i hi (by rw [Feeds.set_other _ _ e2, Feeds.set_other _ _ (by omega)]; simp only [if_neg e2]; exact h), shareOf_cons,
          if_neg (Ne.symm e2)]
        simp only [if_neg e2]

/-- When the iterator has no labels any more: the RememberingPattern has got `share` and has repeated `t` labels of it. -/
def Feed.Repeats (f : Feed L) (n : Nat) (share : List L) (t : Nat) : Prop :=
  (f = .passing n share ∧ (t = 0 ∨ share = [])) ∨ ∃ c, f = .own c ∧ c.HandedOut share t

theorem shared_later {n : Nat} : ∀ (ds : List Nat) (o : Feeds L) (share : Nat → List L) (t : Nat → Nat), o n = .own (Cycle.once []) →
    (∀ i ∈ ds, i ≠ n → n < i ∧ (o i).Repeats n (share i) (t i)) →
    ∀ (j i : Nat), ds[j]? = some i → (o.draws ds).1[j]? = some (if i = n then none else cyclic (share i) (t i + (ds.take j).count i))
  | [], o, share, t, _, _, j, i, hj => by simp at hj
  | d :: ds, o, share, t, hn, hd, j, i, hj => by
    have h1 : o.next n = none := by rw [Feeds.next_own hn]; rfl
    by_cases e : d = n
    · subst e
      simp only [Feeds.draws, h1]
      cases j with
      | zero => simp only [List.getElem?_cons_zero, Option.some.injEq] at hj ⊢; simp [hj]
      | succ j =>
        simp only [List.getElem?_cons_succ] at hj ⊢
        rw [shared_later ds o share t hn (fun i hi => hd i (by simp [hi])) j i hj]
        by_cases e2 : i = d
        · simp [e2]
        · simp only [if_neg e2, List.take_succ_cons, List.count_cons, beq_iff_eq, if_neg (Ne.symm e2), Nat.add_zero]
    · obtain ⟨hlt, hrep⟩ := hd d (by simp) e
      -- what `next` of `d` does
      have hstep : (share d = [] ∧ o.next d = none) ∨ (share d ≠ [] ∧ ∃ x c', o.next d = some (x, o.set d (.own c')) ∧ cyclic (share d) (t d) = some x ∧
          c'.HandedOut (share d) (t d + 1)) := by
        by_cases he : share d = []
        · left
          refine ⟨he, ?_⟩
          rcases hrep with ⟨f1, _⟩ | ⟨c, _, f2⟩
          · rw [Feeds.next_passing f1 hlt, h1, he]; rfl
          · exact absurd he f2.1
        · right
          refine ⟨he, ?_⟩
          rcases hrep with ⟨f1, f2⟩ | ⟨c, f1, f2⟩
          · have ht : t d = 0 := f2.resolve_right he
            obtain ⟨x, c', x1, x2, x3⟩ := (Cycle.handedOut_start he).next
            refine ⟨x, c', ?_, by rw [ht]; exact x2, by rw [ht]; exact x3⟩
            rw [Feeds.next_passing f1 hlt, h1]
            simp only [x1, Option.map_some]
          · obtain ⟨x, c', x1, x2, x3⟩ := f2.next
            refine ⟨x, c', ?_, x2, x3⟩
            rw [Feeds.next_own f1, x1]; rfl
      rcases hstep with ⟨he, hnx⟩ | ⟨he, x, c', hnx, hx, hc⟩
      · simp only [Feeds.draws, hnx]
        cases j with
        | zero =>
          simp only [List.getElem?_cons_zero, Option.some.injEq] at hj ⊢
          subst hj
          simp [e, he, cyclic]
        | succ j =>
          simp only [List.getElem?_cons_succ] at hj ⊢
          rw [shared_later ds o share t hn (fun i hi => hd i (by simp [hi])) j i hj]
          by_cases e2 : i = d
          · subst e2; simp [e, he, cyclic]
          · simp only [List.take_succ_cons, List.count_cons, beq_iff_eq, if_neg (Ne.symm e2), Nat.add_zero]
      · simp only [Feeds.draws, hnx]
        cases j with
        | zero =>
          simp only [List.getElem?_cons_zero, Option.some.injEq] at hj ⊢
          subst hj
          simp [e, hx]
        | succ j =>
          simp only [List.getElem?_cons_succ] at hj ⊢
          rw [shared_later ds (o.set d (.own c')) share (fun i => if i = d then t d + 1 else t i) (by rw [Feeds.set_other _ _ (show n ≠ d by omega)]; exact hn) ?_ j i hj]
          · by_cases e2 : i = d
            · subst e2
              simp only [if_neg e, if_pos, List.take_succ_cons, List.count_cons_self]
              rw [show t i + 1 + (ds.take j).count i = t i + ((ds.take j).count i + 1) by omega]
            · simp only [if_neg e2, List.take_succ_cons, List.count_cons, beq_iff_eq, if_neg (Ne.symm e2), Nat.add_zero]
          · intro i hi hne
            obtain ⟨g1, g2⟩ := hd i (by simp [hi]) hne
            refine ⟨g1, ?_⟩
            by_cases e2 : i = d
            · subst e2; simp only [Feeds.set_same, if_pos]; exact .inr ⟨c', rfl, hc⟩
            · rw [Feeds.set_other _ _ e2]; simp only [if_neg e2]; exact g2

theorem Feeds.draws_fst_append : ∀ (is js : List Nat) (o : Feeds L), (o.draws (is ++ js)).1 = (o.draws is).1 ++ ((o.draws is).2.draws js).1
  | [], js, o => rfl
  | i :: is, js, o => by
    simp only [List.cons_append, Feeds.draws]
    cases o.next i with
    | none => simp only [List.cons_append, Feeds.draws_fst_append is js o]
    | some r => simp only [List.cons_append, Feeds.draws_fst_append is js r.2]

theorem Feeds.length_draws : ∀ (is : List Nat) (o : Feeds L), (o.draws is).1.length = is.length
  | [], o => rfl
  | i :: is, o => by
    simp only [Feeds.draws]
    cases o.next i with
    | none => simp only [List.length_cons, Feeds.length_draws is o]
    | some r => simp only [List.length_cons, Feeds.length_draws is r.2]

theorem zip_take_self {α : Type} : ∀ (ds : List α) (xs : List L), (ds.take xs.length).zip xs = ds.zip xs
  | [], _ => by simp
  | _ :: _, [] => by simp
  | d :: ds, x :: xs => by simp only [List.length_cons, List.take_succ_cons, List.zip_cons_cons, zip_take_self ds xs]

/-- **C126**, RememberingPatterns made of one iterator: however draws from them and from the iterator itself are mixed, each label of the
iterator is handed out once, in turn, to whoever asks; then each RememberingPattern repeats those labels which it has got. -/
theorem C126_shared {o : Feeds L} {n : Nat} {xs : List L} {ds : List Nat} (hn : o n = .own (Cycle.once xs))
    (hd : ∀ i ∈ ds, i = n ∨ (n < i ∧ o i = .passing n [])) {j i : Nat} (hj : ds[j]? = some i) :
    (o.draws ds).1[j]? = some (sharedAnswer n xs ds j i) := by
  have hgt : ∀ i ∈ ds, i ≠ n → n < i := fun i hi h => ((hd i hi).resolve_left h).1
  have hpass : ∀ i, n < i → o i = .passing n [] ∨ i ∉ ds := by
    intro i hi
    by_cases hm : i ∈ ds
    · exact .inl ((hd i hm).resolve_left (by omega)).2
    · exact .inr hm
  have hjl := (List.getElem?_eq_some_iff.1 hj).1
  unfold sharedAnswer
  by_cases hlt : j < xs.length
  · -- within the first round
    rw [if_pos hlt]
    have hsplit := Feeds.draws_fst_append (ds.take xs.length) (ds.drop xs.length) o
    rw [List.take_append_drop] at hsplit
    have hlen : (ds.take xs.length).length ≤ xs.length := by rw [List.length_take]; omega
    have h1 := (shared_first (n := n) (ds.take xs.length) xs o (fun _ => []) hlen hn (fun i hi => hgt i (List.mem_of_mem_take hi)) (fun i hi => by
      rcases hpass i hi with h | h
      · exact .inl h
      · exact .inr (fun hm => h (List.mem_of_mem_take hm)))).1
    rw [hsplit, List.getElem?_append_left (by rw [Feeds.length_draws, List.length_take]; omega), h1, List.getElem?_map, List.getElem?_take,
      if_pos (by rw [List.length_take]; omega), List.getElem?_eq_getElem hlt]
    rfl
  · rw [if_neg hlt]
    have hsplit := Feeds.draws_fst_append (ds.take xs.length) (ds.drop xs.length) o
    rw [List.take_append_drop] at hsplit
    have hlen : (ds.take xs.length).length = xs.length := by rw [List.length_take]; omega
    obtain ⟨_, h2, h3⟩ := shared_first (n := n) (ds.take xs.length) xs o (fun _ => []) (by omega) hn (fun i hi => hgt i (List.mem_of_mem_take hi)) (fun i hi => by
      rcases hpass i hi with h | h
      · exact .inl h
      · exact .inr (fun hm => h (List.mem_of_mem_take hm)))
    have hshare : ∀ i, shareOf xs (ds.take xs.length) i = shareOf xs ds i := by
      intro i
      unfold shareOf
      rw [zip_take_self]
    rw [hlen, List.drop_eq_nil_of_le (Nat.le_refl _)] at h2
    have hjd : (ds.drop xs.length)[j - xs.length]? = some i := by rw [List.getElem?_drop, ← hj]; congr 1; omega
    rw [hsplit, List.getElem?_append_right (by rw [Feeds.length_draws, hlen]; omega), Feeds.length_draws, hlen]
    rw [shared_later (n := n) (ds.drop xs.length) _ (shareOf xs ds) (fun _ => 0) h2 ?_ _ i hjd, Nat.zero_add]
    · rw [List.take_drop, show xs.length + (j - xs.length) = j by omega]
    · intro k hk hne
      have hk' := List.mem_of_mem_drop hk
      obtain ⟨g1, g2⟩ := (hd k hk').resolve_left hne
      refine ⟨g1, .inl ⟨?_, .inl rfl⟩⟩
      rw [h3 k g1 g2, hshare]
      rfl

/-- **C126**, making a timeboard, whether it succeeds or not, does to the objects what drawing labels by `next` from those in its layout does. -/
theorem C126_building_draws (a : Args L) (o : Feeds L) :
    ∃ ids : List Nat, (∀ i ∈ ids, a.layout.UsesRP i) ∧ (Timeboard.attemptO a o).1 = (o.draws ids).2 :=
  Timeboard.attemptO_draws a o

/-! ### Questions about the labels -/

theorem ObjWorld.step_kinds (w : ObjWorld L) (s : ObjStep L) {id : Nat} {k : ObjKind L} (h : w.kinds[id]? = some k) : (w.step s).1.kinds[id]? = some k := by
  have key : ∀ k', (w.kinds ++ [k'])[id]? = some k := by
    intro k'
    rw [List.getElem?_append_left (List.getElem?_eq_some_iff.1 h).1]; exact h
  cases s with
  | list xs => exact key _
  | iterator xs => exact key _
  | remember src => unfold ObjWorld.step; simp only; split
                    · exact key _
                    · exact h
  | draw i => unfold ObjWorld.step; simp only; split <;> exact h
  | item i j => unfold ObjWorld.step; simp only; split <;> exact h
  | length i => unfold ObjWorld.step; simp only; split <;> exact h
  | truth i => unfold ObjWorld.step; simp only; split <;> exact h
  | build a => rw [ObjWorld.step_build]; exact h

theorem ObjWorld.run_kinds : ∀ (ss : List (ObjStep L)) {w : ObjWorld L} {id : Nat} {k : ObjKind L}, w.kinds[id]? = some k → (ObjWorld.run ss w).1.kinds[id]? = some k
  | [], _, _, _, h => h
  | s :: ss, w, _, _, h => ObjWorld.run_kinds ss (w.step_kinds s h)

/-- **C126**, what can be asked of a RememberingPattern made of an iterator or of another RememberingPattern, at any time: `length` and `bool` raise TypeError,
an item is that of the object it is made of; of an iterator there are none. -/
theorem C126_looking (ss ts : List (ObjStep L)) {src : Nat} :
    let w := (ObjWorld.run ss ObjWorld.empty).1
    let n := w.kinds.length
    src < n →
    let w' := (ObjWorld.run (.remember src :: ts) w).1
    (w'.step (.length n)).2 = .raised .typeError ∧ (w'.step (.truth n)).2 = .raised .typeError ∧
    (∀ i, (w'.step (.item n i)).2 = (w'.step (.item src i)).2) ∧
    (w.kinds[src]? = some .iterator → ∀ i, (w'.step (.item n i)).2 = .raised .typeError) := by
  intro w n hlt w'
  have hk : w'.kinds[n]? = some (.of src) := by
    show (ObjWorld.run ts (w.step (.remember src)).1).1.kinds[n]? = _
    apply ObjWorld.run_kinds ts
    unfold ObjWorld.step
    simp only [if_pos (show src < w.kinds.length from hlt)]
    rw [List.getElem?_append_right (Nat.le_refl _)]
    simp [n]
  have hit : ∀ i, (w'.step (.item n i)).2 = (w'.step (.item src i)).2 := by
    intro i
    have : itemOf w'.kinds n i = itemOf w'.kinds src i := by
      rw [itemOf]
      simp only [hk, if_pos hlt]
    unfold ObjWorld.step
    simp only [this]
  refine ⟨?_, ?_, hit, ?_⟩
  · unfold ObjWorld.step; simp only [hk]
  · unfold ObjWorld.step; simp only [hk]
  · intro hs i
    have hs' : w'.kinds[src]? = some .iterator := ObjWorld.run_kinds _ hs
    rw [hit]
    have : itemOf w'.kinds src i = .error .typeError := by rw [itemOf]; simp only [hs']
    unfold ObjWorld.step
    simp only [this]

/-! ### Objects which have their labels in hand -/

/-- Only iterators and RememberingPatterns of lists. -/
def Heap.plain (h : Heap L) : Feeds L := fun i => .own (h i)

def TLState.plain (st : TLState L) : ObjState L := { labels := st.labels, mask := st.mask, objs := st.heap.plain }

theorem Heap.plain_set (h : Heap L) (i : Nat) (c : Cycle L) : (h.plain).set i (.own c) = (h.set i c).plain := by
  funext j
  simp only [Feeds.set, Heap.plain, Heap.set]
  split <;> rfl

theorem Wrap.nextO_plain (w : Wrap L) (h : Heap L) : w.nextO h.plain = (w.next h).map (fun r => (r.1, r.2.1, r.2.2.plain)) := by
  cases w with
  | repeating c =>
    simp only [Wrap.nextO, Wrap.next]
    cases c.next <;> rfl
  | passing i seen =>
    simp only [Wrap.nextO, Wrap.next]
    rw [Feeds.next_own (c := h i) rfl]
    cases (h i).next with
    | none =>
      simp only [Option.map_none]
      cases (Cycle.start seen).next <;> rfl
    | some r => simp only [Option.map_some, Heap.plain_set]

theorem Wrap.takeO_plain : ∀ (n : Nat) (w : Wrap L) (h : Heap L), Wrap.takeO n w h.plain = (Wrap.take n w h).map (fun r => (r.1, r.2.1, r.2.2.plain))
  | 0, w, h => rfl
  | n + 1, w, h => by
    simp only [Wrap.takeO, Wrap.take]
    rw [Wrap.nextO_plain]
    cases w.next h with
    | none => rfl
    | some r =>
      simp only [Option.map_some]
      rw [Wrap.takeO_plain n]
      cases Wrap.take n r.2.1 r.2.2 <;> rfl

theorem skiperatorTakeO_plain (p : Pattern L) (skip n : Nat) (h : Heap L) :
    skiperatorTakeO p skip n h.plain = (skiperatorTakeIt p skip n h).map (fun r => (r.1, r.2.plain)) := by
  simp only [skiperatorTakeO, skiperatorTakeIt]
  rw [Wrap.takeO_plain]
  cases Wrap.take skip p.wrap h with
  | none => rfl
  | some r =>
    simp only [Option.map_some]
    rw [Wrap.takeO_plain]
    cases Wrap.take n r.2.1 r.2.2 <;> rfl

/-- What `t` does is what `q` does. -/
def ObjTry.Plain (t : ObjTry L) (q : Step L) : Prop :=
  ∀ s st, match q s st with
    | .ok st' => t s st.plain = (st'.plain, none)
    | .error e => (t s st.plain).2 = some e

theorem makeCompoundO_plain (l : L) : ObjTry.Plain (makeCompoundO l) (makeCompound l) := fun _ _ => rfl

theorem applyPatternO_plain (p : Pattern L) : ObjTry.Plain (applyPatternO p) (applyPatternIt p) := by
  intro s st
  simp only [applyPatternO, applyPatternIt]
  by_cases h : s.skipLeft < 0
  · simp only [if_pos h]
  · simp only [if_neg h]
    rw [show st.plain.objs = st.heap.plain from rfl, skiperatorTakeO_plain]
    cases skiperatorTakeIt p s.skipLeft.toNat (s.last + 1 - s.first).toNat st.heap <;> rfl

theorem zipO_plain : ∀ (ss : List Span) (c : Cycle (ObjTry L × Step L)) (st : TLState L),
    (∀ x, x ∈ c.saved ∨ x ∈ c.rest → ObjTry.Plain x.1 x.2) →
    match zipRun ss (c.mapC Prod.snd) st with
    | .ok st' => zipO ss (c.mapC Prod.fst) st.plain = (st'.plain, none)
    | .error e => (zipO ss (c.mapC Prod.fst) st.plain).2 = some e
  | [], _, _, _ => rfl
  | s :: ss, c, st, hc => by
    simp only [zipRun, zipO]
    rw [Cycle.next_mapC, Cycle.next_mapC]
    cases hn : c.next with
    | none => rfl
    | some r =>
      obtain ⟨x, c'⟩ := r
      simp only [Option.map_some]
      have hx : ObjTry.Plain x.1 x.2 ∧ (∀ y, y ∈ c'.saved ∨ y ∈ c'.rest → ObjTry.Plain y.1 y.2) := by
        obtain ⟨sv, rs⟩ := c
        cases rs with
        | cons a as =>
          simp only [Cycle.next, Option.some.injEq, Prod.mk.injEq] at hn
          obtain ⟨rfl, rfl⟩ := hn
          exact ⟨hc _ (.inr (by simp)), fun y hy => hc y (hy.imp id (fun h => by simp [h]))⟩
        | nil =>
          cases sv with
          | nil => cases hn
          | cons a as =>
            simp only [Cycle.next, Option.some.injEq, Prod.mk.injEq] at hn
            obtain ⟨rfl, rfl⟩ := hn
            exact ⟨hc _ (.inl (by simp)), fun y hy => hc y (.inl (hy.elim id (fun h => by simp [h])))⟩
      have h1 := hx.1 s st
      cases hq : x.2 s st with
      | error e =>
        rw [hq] at h1
        simp only at h1 ⊢
        generalize x.1 s st.plain = z at h1 ⊢
        obtain ⟨z1, z2⟩ := z
        simp only at h1
        subst h1
        rfl
      | ok st' =>
        rw [hq] at h1
        simp only at h1 ⊢
        rw [h1]
        exact zipO_plain ss c' st' hx.2

theorem zipLabelsO_plain : ∀ (ss : List Span) (w : Wrap L) (st : TLState L),
    match zipRunIt ss w st with
    | .ok st' => zipLabelsO ss w st.plain = (st'.plain, none)
    | .error e => (zipLabelsO ss w st.plain).2 = some e
  | [], _, _ => rfl
  | s :: ss, w, st => by
    simp only [zipRunIt, zipLabelsO]
    rw [show st.plain.objs = st.heap.plain from rfl, Wrap.nextO_plain]
    cases w.next st.heap with
    | none => rfl
    | some r => exact zipLabelsO_plain ss r.2.1 _

mutual
theorem Layout.runO_plain (f : Frame) : ∀ l : Layout L, ObjTry.Plain (Layout.runO f l) (Layout.runIt f l)
  | .organizer cut elems => by
    intro s st
    simp only [Layout.runO, Layout.runIt]
    cases f.cutSpan cut s with
    | error e => rfl
    | ok ss =>
      obtain ⟨z, h1, h2, h3⟩ := Layout.runOAll_plain f elems
      have := zipO_plain ss (Cycle.start z) st (fun x hx => h3 x (by simpa [Cycle.start] using hx))
      have e1 : (Cycle.start z).mapC Prod.fst = Cycle.start (Layout.runOAll f elems) := by rw [← h1]; rfl
      have e2 : (Cycle.start z).mapC Prod.snd = Cycle.start (Layout.runItAll f elems) := by rw [← h2]; rfl
      rw [e1, e2] at this
      exact this
  | .organizerRP cut i => by
    intro s st
    simp only [Layout.runO, Layout.runIt]
    cases f.cutSpan cut s with
    | error e => rfl
    | ok ss => exact zipLabelsO_plain ss _ st
  | .pattern p => by
    simp only [Layout.runO, Layout.runIt]
    exact applyPatternO_plain p
  | .label l => by
    simp only [Layout.runO, Layout.runIt]
    exact makeCompoundO_plain l
theorem Layout.runOAll_plain (f : Frame) : ∀ ls : List (Layout L),
    ∃ z : List (ObjTry L × Step L), z.map Prod.fst = Layout.runOAll f ls ∧ z.map Prod.snd = Layout.runItAll f ls ∧ ∀ x ∈ z, ObjTry.Plain x.1 x.2
  | [] => ⟨[], rfl, rfl, by simp⟩
  | l :: ls => by
    obtain ⟨z, h1, h2, h3⟩ := Layout.runOAll_plain f ls
    refine ⟨(Layout.runO f l, Layout.runIt f l) :: z, by simp [Layout.runOAll, h1], by simp [Layout.runItAll, h2], ?_⟩
    intro x hx
    rcases List.mem_cons.1 hx with rfl | hx
    · exact Layout.runO_plain f l
    · exact h3 x hx
end

/-- **C126**, where all objects are iterators and RememberingPatterns of lists, timeboards are made as in `Timeboard.newIt` (C111 and others are about it): the same
timeboard and the same states of objects, or the same exception. -/
theorem C126_plain (a : Args L) (h : Heap L) :
    match Timeboard.newIt a h with
    | .ok (tb, h') => Timeboard.attemptO a h.plain = (h'.plain, .ok tb)
    | .error e => (Timeboard.attemptO a h.plain).2 = .error e := by
  unfold Timeboard.newIt Timeboard.attemptO
  cases makeOrganizer a.layout with
  | error e => rfl
  | ok org =>
    simp only
    by_cases hw : a.worktimeSource ∉ ["duration", "labels"]
    · simp only [if_pos hw]
    · simp only [if_neg hw]
      cases Frame.new a.freq a.start a.stop with
      | error e => rfl
      | ok f =>
        simp only [Timeline.newIt]
        have := Layout.runO_plain f org { first := 0, last := (f.n : Int) - 1 } { labels := fun _ => a.defaultLabel, mask := fun _ => true, heap := h }
        generalize Layout.runIt f org _ _ = q at this ⊢
        have hp : (TLState.plain { labels := fun _ => a.defaultLabel, mask := fun _ => true, heap := h }) =
          ({ labels := fun _ => a.defaultLabel, mask := fun _ => true, objs := h.plain } : ObjState L) := rfl
        rw [hp] at this
        generalize Layout.runO f org _ _ = z at this ⊢
        cases q with
        | error e =>
          simp only at this ⊢
          obtain ⟨z1, z2⟩ := z
          simp only at this
          subst this
          rfl
        | ok st =>
          simp only at this ⊢
          subst this
          simp only [TLState.plain]
          generalize Timeline.amend _ _ = w
          cases w <;> rfl

/-- What `t` does with objects which do not end is what `q` does, an exception or not. -/
def ObjTry.Lasting (t : ObjTry L) (q : Try L) : Prop :=
  ∀ s st, st.heap.Lasting → t s st.plain = ((q s st).1.plain, (q s st).2) ∧ (q s st).1.heap.Lasting

theorem makeCompoundO_lasting (l : L) : ObjTry.Lasting (makeCompoundO l) (makeCompoundTry l) := fun _ _ h => ⟨rfl, h⟩

theorem applyPatternO_lasting (p : Pattern L) : ObjTry.Lasting (applyPatternO p) (applyPatternTry p) := by
  intro s st hh
  obtain ⟨h1, h2⟩ := skiperatorTakeIt_lasting p s.skipLeft.toNat (s.last + 1 - s.first).toNat hh
  simp only [applyPatternO, applyPatternTry]
  by_cases h : s.skipLeft < 0
  · simp only [if_pos h]; exact ⟨trivial, hh⟩
  · simp only [if_neg h]
    rw [show st.plain.objs = st.heap.plain from rfl, skiperatorTakeO_plain, h1]
    cases hx : skiperatorTake p s.skipLeft.toNat (s.last + 1 - s.first).toNat st.heap with
    | none => exact ⟨rfl, hh⟩
    | some r => exact ⟨rfl, h2 r.1 r.2 hx⟩

theorem zipLabelsO_lasting {i : Nat} : ∀ (ss : List Span) {seen : List L} {st : TLState L}, st.heap.Lasting → ((st.heap i).saved = [] → seen = []) →
    zipLabelsO ss (.passing i seen) st.plain = ((zipTryRP ss i st).1.plain, (zipTryRP ss i st).2) ∧ (zipTryRP ss i st).1.heap.Lasting
  | [], seen, st, hh, hs => ⟨rfl, hh⟩
  | s :: ss, seen, st, hh, hs => by
    simp only [zipLabelsO, zipTryRP]
    rw [show st.plain.objs = st.heap.plain from rfl, Wrap.nextO_plain, Wrap.next_lasting hs]
    cases hn : (st.heap i).next with
    | none => exact ⟨rfl, hh⟩
    | some q =>
      obtain ⟨x, c'⟩ := q
      have hne : ((st.heap.set i c') i).saved ≠ [] := by rw [Heap.set_same, Cycle.next_saved hn]; exact (hh i).saved hn
      simp only [Option.map_some, makeCompoundO, makeCompoundTry]
      exact zipLabelsO_lasting ss (st := { labels := fun j => if j = s.first then x else st.labels j
                                           mask := fun j => if s.first + 1 ≤ j ∧ j ≤ s.last then false else st.mask j
                                           heap := st.heap.set i c' }) (hh.set hn) (fun e => absurd e hne)

theorem zipO_lasting : ∀ (ss : List Span) (c : Cycle (ObjTry L × Try L)) (st : TLState L),
    (∀ x, x ∈ c.saved ∨ x ∈ c.rest → ObjTry.Lasting x.1 x.2) → st.heap.Lasting →
    zipO ss (c.mapC Prod.fst) st.plain = ((zipTry ss (c.mapC Prod.snd) st).1.plain, (zipTry ss (c.mapC Prod.snd) st).2) ∧
    (zipTry ss (c.mapC Prod.snd) st).1.heap.Lasting
  | [], _, _, _, hh => ⟨rfl, hh⟩
  | s :: ss, c, st, hc, hh => by
    simp only [zipTry, zipO]
    rw [Cycle.next_mapC, Cycle.next_mapC]
    cases hn : c.next with
    | none => exact ⟨rfl, hh⟩
    | some r =>
      obtain ⟨x, c'⟩ := r
      simp only [Option.map_some]
      have hx : ObjTry.Lasting x.1 x.2 ∧ (∀ y, y ∈ c'.saved ∨ y ∈ c'.rest → ObjTry.Lasting y.1 y.2) := by
        obtain ⟨sv, rs⟩ := c
        cases rs with
        | cons a as =>
          simp only [Cycle.next, Option.some.injEq, Prod.mk.injEq] at hn
          obtain ⟨rfl, rfl⟩ := hn
          exact ⟨hc _ (.inr (by simp)), fun y hy => hc y (hy.imp id (fun h => by simp [h]))⟩
        | nil =>
          cases sv with
          | nil => cases hn
          | cons a as =>
            simp only [Cycle.next, Option.some.injEq, Prod.mk.injEq] at hn
            obtain ⟨rfl, rfl⟩ := hn
            exact ⟨hc _ (.inl (by simp)), fun y hy => hc y (.inl (hy.elim id (fun h => by simp [h])))⟩
      obtain ⟨h1, h2⟩ := hx.1 s st hh
      rw [h1]
      generalize x.2 s st = z at h2 ⊢
      obtain ⟨z1, z2⟩ := z
      cases z2 with
      | some e => exact ⟨rfl, h2⟩
      | none => exact zipO_lasting ss c' z1 hx.2 h2

mutual
theorem Layout.runO_lasting (f : Frame) : ∀ l : Layout L, ObjTry.Lasting (Layout.runO f l) (Layout.attempt f l)
  | .organizer cut elems => by
    intro s st hh
    simp only [Layout.runO, Layout.attempt]
    cases f.cutSpan cut s with
    | error e => exact ⟨rfl, hh⟩
    | ok ss =>
      obtain ⟨z, h1, h2, h3⟩ := Layout.runOAll_lasting f elems
      have := zipO_lasting ss (Cycle.start z) st (fun x hx => h3 x (by simpa [Cycle.start] using hx)) hh
      have e1 : (Cycle.start z).mapC Prod.fst = Cycle.start (Layout.runOAll f elems) := by rw [← h1]; rfl
      have e2 : (Cycle.start z).mapC Prod.snd = Cycle.start (Layout.attemptAll f elems) := by rw [← h2]; rfl
      rw [e1, e2] at this
      exact this
  | .organizerRP cut i => by
    intro s st hh
    simp only [Layout.runO, Layout.attempt]
    cases f.cutSpan cut s with
    | error e => exact ⟨rfl, hh⟩
    | ok ss => exact zipLabelsO_lasting ss hh (fun _ => rfl)
  | .pattern p => by
    simp only [Layout.runO, Layout.attempt]
    exact applyPatternO_lasting p
  | .label l => by
    simp only [Layout.runO, Layout.attempt]
    exact makeCompoundO_lasting l
theorem Layout.runOAll_lasting (f : Frame) : ∀ ls : List (Layout L),
    ∃ z : List (ObjTry L × Try L), z.map Prod.fst = Layout.runOAll f ls ∧ z.map Prod.snd = Layout.attemptAll f ls ∧ ∀ x ∈ z, ObjTry.Lasting x.1 x.2
  | [] => ⟨[], rfl, rfl, by simp⟩
  | l :: ls => by
    obtain ⟨z, h1, h2, h3⟩ := Layout.runOAll_lasting f ls
    refine ⟨(Layout.runO f l, Layout.attempt f l) :: z, by simp [Layout.runOAll, h1], by simp [Layout.attemptAll, h2], ?_⟩
    intro x hx
    rcases List.mem_cons.1 hx with rfl | hx
    · exact Layout.runO_lasting f l
    · exact h3 x hx
end

/-- **C126**, where all objects are RememberingPatterns of lists, a construction leaves them, whether it succeeds or fails midway, as in `Timeboard.attempt`
(C88, C117): what was drawn before an exception is gone. -/
theorem C126_failing (a : Args L) {h : Heap L} (hh : h.Lasting) :
    Timeboard.attemptO a h.plain = ((Timeboard.attempt a h).1.plain, (Timeboard.attempt a h).2) := by
  unfold Timeboard.attempt Timeboard.attemptO
  cases makeOrganizer a.layout with
  | error e => rfl
  | ok org =>
    simp only
    by_cases hw : a.worktimeSource ∉ ["duration", "labels"]
    · simp only [if_pos hw]
    · simp only [if_neg hw]
      cases Frame.new a.freq a.start a.stop with
      | error e => rfl
      | ok f =>
        simp only
        have := (Layout.runO_lasting f org { first := 0, last := (f.n : Int) - 1 } { labels := fun _ => a.defaultLabel, mask := fun _ => true, heap := h } hh).1
        have hp : (TLState.plain { labels := fun _ => a.defaultLabel, mask := fun _ => true, heap := h }) =
          ({ labels := fun _ => a.defaultLabel, mask := fun _ => true, objs := h.plain } : ObjState L) := rfl
        rw [hp] at this
        rw [this]
        generalize Layout.attempt f org _ _ = z
        obtain ⟨z1, z2⟩ := z
        cases z2 with
        | some e => rfl
        | none =>
          simp only [TLState.plain]
          generalize Timeline.amend _ _ = w
          cases w <;> rfl

/-! ### Examples -/

/-- **C126**: "labels" may be any iterable, and `length` is the "number of elements in `labels`", but a RememberingPattern made of an iterator raises TypeError. -/
theorem C126_negation : ∃ (xs : List Int) (s : ObjStep Int),
    (ObjWorld.run [.iterator xs, .remember 0, s] ObjWorld.empty).2.map RPAnswer.show ≠ (ObjWorld.run [.iterator xs, .list xs, s] ObjWorld.empty).2.map RPAnswer.show :=
  ⟨[1, 2], .length 1, by decide +kernel⟩

/-- Labels of four days, in two spans, from the object. -/
def srcArgs (i : Nat) : Args Int := rpArgs (.organizer (.marks [date 2017 1 3]) [.pattern (.rp i)]) (date 2017 1 1) (date 2017 1 4)

/-- Object 1 is made of a generator of 1, 2, 3 and has labels for timeboards of any length (`C126_like_list_partial`); the generator itself is left with none. -/
example : (ObjWorld.run [.iterator [1, 2, 3], .remember 0, .draw 1, .build (srcArgs 1), .draw 1, .length 1, .truth 1, .item 1 0, .draw 0, .truth 0, .length 0]
      ObjWorld.empty).2.map RPAnswer.show =
    [.ok [0], .ok [1], .ok [1], .ok [2, 3, 1, 2], .ok [3], .error .typeError, .error .typeError, .error .typeError, .error .runtimeError, .ok [1],
      .error .attributeError] := by decide +kernel

/-- A generator draws as many labels as it has: the first span repeats what it got, and the second has got none (C97). -/
example : (ObjWorld.run [.iterator [1], .build (srcArgs 0)] ObjWorld.empty).2.map RPAnswer.show = [.ok [0], .ok [1, 1, 9, 9]] := by decide +kernel

/-- A RememberingPattern of a RememberingPattern draws from it (`C126_of_another`), and its items are those of it (`C126_looking`). -/
example : (ObjWorld.run [.list [1, 2, 3], .remember 0, .draw 0, .draw 1, .build (srcArgs 1), .draw 0, .item 1 (-1), .length 1] ObjWorld.empty).2.map RPAnswer.show =
    [.ok [0], .ok [1], .ok [1], .ok [2], .ok [3, 1, 2, 3], .ok [1], .ok [3], .error .typeError] := by decide +kernel

/-- Two RememberingPatterns of a generator of five labels: 1, 3, 4 are the share of the first, 2 and 5 that of the second (`C126_shared`). -/
example : (ObjWorld.run [.iterator [1, 2, 3, 4, 5], .remember 0, .remember 0, .draw 1, .draw 2, .draw 1, .draw 1, .draw 2, .draw 2, .draw 1, .draw 0, .draw 1, .draw 2]
      ObjWorld.empty).2.map RPAnswer.show =
    [.ok [0], .ok [1], .ok [2], .ok [1], .ok [2], .ok [3], .ok [4], .ok [5], .ok [2], .ok [1], .error .runtimeError, .ok [3], .ok [5]] := by decide +kernel
example : [1, 2, 1, 1, 2, 2, 1, 0, 1, 2].zipIdx.map (fun p => sharedAnswer 0 [1, 2, 3, 4, 5] [1, 2, 1, 1, 2, 2, 1, 0, 1, 2] p.2 p.1) =
    [some 1, some 2, some 3, some 4, some 5, some 2, some 1, none, some 3, some 5] := by decide +kernel

/-- The hypotheses of `C126_like_list_partial` and `C126_of_another` for these programs. -/
example : (∀ s ∈ [ObjStep.draw 1, .build (srcArgs 1), .draw 1], ¬ s.Uses 0) := by
  intro s hs
  simp only [List.mem_cons, List.not_mem_nil, or_false] at hs
  rcases hs with rfl | rfl | rfl
  · simp [ObjStep.Uses]
  · intro h
    rcases h with h | ⟨cut, h⟩
    · cases h with
      | elem h1 h2 =>
        simp only [List.mem_cons, List.not_mem_nil, or_false] at h1
        subst h1
        cases h2
    · cases h with
      | elem h1 h2 =>
        simp only [List.mem_cons, List.not_mem_nil, or_false] at h1
        subst h1
        cases h2
  · simp [ObjStep.Uses]
example : (ObjWorld.run [ObjStep.list [(1 : Int), 2, 3]] ObjWorld.empty).1.kinds[0]? = some (.list [1, 2, 3]) := rfl

/-- The first span takes two labels by the time the construction fails at the second one (`C126_failing`, `failing` of C88). -/
example : (ObjWorld.run [.list [1, 2, 3], .build failing, .draw 0] ObjWorld.empty).2.map RPAnswer.show = [.ok [0], .error .unacceptablePeriod, .ok [3]] := by decide +kernel

/-- The hypotheses of `C126_shared`. -/
example : let o := (ObjWorld.run [ObjStep.iterator [(1 : Int), 2, 3, 4, 5], .remember 0, .remember 0] ObjWorld.empty).1.objs
    o 0 = .own (Cycle.once [1, 2, 3, 4, 5]) ∧ ∀ i ∈ [1, 2, 1, 1, 2, 2, 1, 0, 1, 2], i = 0 ∨ (0 < i ∧ o i = .passing 0 []) := by
  refine ⟨rfl, ?_⟩
  intro i hi
  simp only [List.mem_cons, List.not_mem_nil, or_false] at hi
  have : i = 0 ∨ i = 1 ∨ i = 2 := by omega
  rcases this with rfl | rfl | rfl
  · exact .inl rfl
  · exact .inr ⟨by omega, rfl⟩
  · exact .inr ⟨by omega, rfl⟩

end TB
