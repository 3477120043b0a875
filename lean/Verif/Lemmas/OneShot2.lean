import Verif.Lemmas.OneShot
/-! Layouts in which each iterator is used once. -/
namespace TB
variable {L : Type}

/-- The step does what the other does if the iterators it uses are used once. -/
def LikeLists (f : Frame) (step : OnceStep L) (step' : Step L) (d : Span → List Nat) : Prop :=
  ∀ (s : Span) (st : OnceState L), 0 ≤ s.first → s.first ≤ s.last → s.last < (f.n : Int) → (d s).Nodup → (∀ id ∈ d s, st.drawn id = 0) →
    (∃ e, step s st = .error e ∧ step' s st.tl = .error e) ∨
    ∃ tl g, step s st = .ok { tl := tl, drawn := g } ∧ step' s st.tl = .ok tl ∧ ∀ id, id ∉ d s → g id = st.drawn id

theorem zipOnce_lists {f : Frame} {steps : List (OnceStep L)} {steps' : List (Step L)} {ds : List (Span → List Nat)} (hl : steps.length = steps'.length)
    (hd : steps.length = ds.length)
    (ha : ∀ (i : Nat) step step' d, steps[i]? = some step → steps'[i]? = some step' → ds[i]? = some d → LikeLists f step step' d) :
    ∀ (ss : List Span) (c : Cycle (OnceStep L)) (c' : Cycle (Step L)) (p : Nat) (st : OnceState L), c.HandedOut steps p → c'.HandedOut steps' p →
      (∀ s ∈ ss, 0 ≤ s.first ∧ s.first ≤ s.last ∧ s.last < (f.n : Int)) → (usesInTurns ds p ss).Nodup → (∀ id ∈ usesInTurns ds p ss, st.drawn id = 0) →
      (∃ e, zipOnce ss c st = .error e ∧ zipRun ss c' st.tl = .error e) ∨
      ∃ tl g, zipOnce ss c st = .ok { tl := tl, drawn := g } ∧ zipRun ss c' st.tl = .ok tl ∧ ∀ id, id ∉ usesInTurns ds p ss → g id = st.drawn id
  | [], _, _, _, st, _, _, _, _, _ => .inr ⟨st.tl, st.drawn, rfl, rfl, fun _ _ => rfl⟩
  | s :: ss, c, c', p, st, hc, hc', hs, hn, hu => by
    obtain ⟨step, c1, e1, e2, e3⟩ := hc.next
    obtain ⟨step', c1', e1', e2', e3'⟩ := hc'.next
    obtain ⟨d, hdd⟩ : ∃ d, cyclic ds p = some d := by
      have := List.length_pos_iff.2 hc.1
      unfold cyclic
      exact ⟨_, List.getElem?_eq_getElem (Nat.mod_lt _ (by omega))⟩
    simp only [usesInTurns, hdd] at hn hu ⊢
    obtain ⟨hn1, hn2, hn3⟩ := List.nodup_append.1 hn
    obtain ⟨h0, h1, h2⟩ := hs s (by simp)
    simp only [zipOnce, zipRun, e1, e1']
    rcases ha (p % steps.length) step step' d e2 (by rw [hl]; exact e2') (by rw [hd]; exact hdd) s st h0 h1 h2 hn1
      (fun id hid => hu id (by simp [hid])) with ⟨e, g1, g2⟩ | ⟨tl, g, g1, g2, g3⟩
    · rw [g1, g2]; exact .inl ⟨e, rfl, rfl⟩
    · rw [g1, g2]
      simp only
      rcases zipOnce_lists hl hd ha ss c1 c1' (p + 1) { tl := tl, drawn := g } e3 e3' (fun x hx => hs x (by simp [hx])) hn2
        (fun id hid => by
          show g id = 0
          rw [g3 id (fun hx => hn3 id hx id hid rfl)]
          exact hu id (by simp [hid])) with ⟨e, k1, k2⟩ | ⟨tl2, g2', k1, k2, k3⟩
      · exact .inl ⟨e, k1, k2⟩
      · refine .inr ⟨tl2, g2', k1, k2, fun id hid => ?_⟩
        rw [List.mem_append, not_or] at hid
        rw [k3 id hid.2]
        exact g3 id hid.1

theorem zipOnce_lists_start {f : Frame} {steps : List (OnceStep L)} {steps' : List (Step L)} {ds : List (Span → List Nat)} (hl : steps.length = steps'.length)
    (hd : steps.length = ds.length)
    (ha : ∀ (i : Nat) step step' d, steps[i]? = some step → steps'[i]? = some step' → ds[i]? = some d → LikeLists f step step' d)
    (ss : List Span) (st : OnceState L)
    (hs : ∀ s ∈ ss, 0 ≤ s.first ∧ s.first ≤ s.last ∧ s.last < (f.n : Int)) (hn : (usesInTurns ds 0 ss).Nodup) (hu : ∀ id ∈ usesInTurns ds 0 ss, st.drawn id = 0) :
    (∃ e, zipOnce ss (Cycle.start steps) st = .error e ∧ zipRun ss (Cycle.start steps') st.tl = .error e) ∨
      ∃ tl g, zipOnce ss (Cycle.start steps) st = .ok { tl := tl, drawn := g } ∧ zipRun ss (Cycle.start steps') st.tl = .ok tl ∧
        ∀ id, id ∉ usesInTurns ds 0 ss → g id = st.drawn id := by
  by_cases h : steps = []
  · subst h
    have : steps' = [] := List.length_eq_zero_iff.1 (by simpa using hl.symm)
    subst this
    right
    refine ⟨st.tl, st.drawn, ?_, ?_, fun _ _ => rfl⟩ <;> cases ss <;> rfl
  · have h' : steps' ≠ [] := by
      intro e; subst e; exact h (List.length_eq_zero_iff.1 (by simpa using hl))
    exact zipOnce_lists hl hd ha ss _ _ 0 st (Cycle.handedOut_start h) (Cycle.handedOut_start h') hs hn hu

theorem OnceLayout.length_usesAll (f : Frame) : ∀ ls : List (OnceLayout L), (OnceLayout.usesAll f ls).length = ls.length
  | [] => rfl
  | l :: ls => by simp [OnceLayout.usesAll, OnceLayout.length_usesAll f ls]

theorem OnceLayout.length_asListsAll (f : Frame) : ∀ ls : List (OnceLayout L), (Layout.runItAll f (OnceLayout.asListsAll ls)).length = ls.length
  | [] => rfl
  | l :: ls => by simp [OnceLayout.asListsAll, Layout.runItAll, OnceLayout.length_asListsAll f ls]

theorem Cut.remaining_fresh {c : Cut} {it : Option Nat} {g : Drawn} (h : ∀ id ∈ it.toList, g id = 0) (hf : c.Filled it) : c.remaining it g = c := by
  cases it with
  | none => cases c <;> rfl
  | some id =>
    have h0 : g id = 0 := h id (by simp)
    cases c with
    | marks ts => simp [Cut.remaining, h0]
    | marker m =>
      have : ¬ m.ats.length ≤ 0 := by
        intro hle
        exact hf (List.length_eq_zero_iff.1 (by omega))
      simp [Cut.remaining, h0]
      intro e
      exact absurd e hf

theorem Drawn.after_other {g : Drawn} {it : Option Nat} {n len id : Nat} (h : id ∉ it.toList) : g.after it n len id = g id := by
  unfold Drawn.after
  rw [if_neg]
  intro e
  subst e
  simp at h

mutual
theorem OnceLayout.run_lists (f : Frame) : ∀ l : OnceLayout L, l.Filled → LikeLists f (OnceLayout.run f l) (Layout.runIt f l.asLists) (l.uses f)
  | .organizer cut cutIt elems elemsIt, hfl => by
    intro s st h0 h1 h2 hn hu
    simp only [OnceLayout.uses] at hn hu ⊢
    simp only [OnceLayout.run, OnceLayout.asLists, Layout.runIt, Cut.seen_remaining]
    rw [Cut.remaining_fresh (fun id hid => hu id (List.mem_append_left _ hid)) hfl.1]
    rw [← Frame.cutSpan_eq cut h0 h1 h2] at hn hu ⊢
    cases hc : f.cutSpan cut s with
    | error e => exact .inl ⟨e, rfl, rfl⟩
    | ok ss =>
      have ht := Frame.cutSpan_tiles hc
      rw [hc] at hn hu
      simp only at hn hu ⊢
      simp only [Cut.use_after, Drawn.upTo_after, OnceLayout.length_runAll]
      have hs : ∀ x ∈ ss, 0 ≤ x.first ∧ x.first ≤ x.last ∧ x.last < (f.n : Int) := by
        intro x hx
        have := ht.2.2.mem hx
        omega
      obtain ⟨_, hn2, hn3⟩ := List.nodup_append.1 hn
      obtain ⟨_, hn5, hn6⟩ := List.nodup_append.1 hn2
      have hleft : leftOf elemsIt (st.drawn.after cutIt cut.size cut.size) (OnceLayout.runAll f elems) = OnceLayout.runAll f elems := by
        cases elemsIt with
        | none => rfl
        | some id =>
          have : (st.drawn.after cutIt cut.size cut.size) id = 0 := by
            rw [Drawn.after_other (fun hx => hn3 id hx id (by simp) rfl)]
            exact hu id (by simp)
          simp [leftOf, this]
      rw [hleft]
      rcases zipOnce_lists_start (st := { tl := st.tl, drawn := (st.drawn.after cutIt cut.size cut.size).after elemsIt ss.length elems.length })
        (steps' := Layout.runItAll f (OnceLayout.asListsAll elems)) (ds := OnceLayout.usesAll f elems)
        (by rw [OnceLayout.length_runAll, OnceLayout.length_asListsAll]) (by rw [OnceLayout.length_runAll, OnceLayout.length_usesAll])
        (OnceLayout.runAll_lists f elems hfl.2) ss hs hn5 (fun id hid => by
          show (st.drawn.after cutIt cut.size cut.size).after elemsIt ss.length elems.length id = 0
          rw [Drawn.after_other (fun hx => hn6 id hx id hid rfl),
            Drawn.after_other (fun hx => hn3 id hx id (List.mem_append_right _ hid) rfl)]
          exact hu id (List.mem_append_right _ (List.mem_append_right _ hid))) with ⟨e, k1, k2⟩ | ⟨tl, g, k1, k2, k3⟩
      · exact .inl ⟨e, k1, k2⟩
      · refine .inr ⟨tl, g, k1, k2, fun id hid => ?_⟩
        rw [List.mem_append, List.mem_append, not_or, not_or] at hid
        rw [k3 id hid.2.2]
        show (st.drawn.after cutIt cut.size cut.size).after elemsIt ss.length elems.length id = _
        rw [Drawn.after_other hid.2.1, Drawn.after_other hid.1]
  | .organizerRP cut cutIt i, hfl => by
    intro s st h0 h1 h2 hn hu
    simp only [OnceLayout.uses] at hn hu ⊢
    simp only [OnceLayout.run, OnceLayout.asLists, Layout.runIt, Cut.seen_remaining]
    rw [Cut.remaining_fresh hu hfl]
    cases hc : f.cutSpan cut s with
    | error e => exact .inl ⟨e, rfl, rfl⟩
    | ok ss =>
      simp only
      cases zipRunIt ss (.passing i []) st.tl with
      | error e => exact .inl ⟨e, rfl, rfl⟩
      | ok tl => exact .inr ⟨tl, _, rfl, rfl, fun id hid => by rw [Cut.use_after]; exact Drawn.after_other hid⟩
  | .pattern p, _ => by
    intro s st _ _ _ _ _
    simp only [OnceLayout.run, OnceLayout.asLists, Layout.runIt, Step.once]
    cases applyPatternIt p s st.tl with
    | error e => exact .inl ⟨e, rfl, rfl⟩
    | ok tl => exact .inr ⟨tl, _, rfl, rfl, fun _ _ => rfl⟩
  | .label l, _ => by
    intro s st _ _ _ _ _
    exact .inr ⟨_, _, rfl, rfl, fun _ _ => rfl⟩

theorem OnceLayout.runAll_lists (f : Frame) : ∀ (ls : List (OnceLayout L)), OnceLayout.FilledAll ls → ∀ (i : Nat) step step' d,
    (OnceLayout.runAll f ls)[i]? = some step → (Layout.runItAll f (OnceLayout.asListsAll ls))[i]? = some step' →
    (OnceLayout.usesAll f ls)[i]? = some d → LikeLists f step step' d
  | [], _, _, _, _, _, h, _, _ => by simp [OnceLayout.runAll] at h
  | l :: ls, hfl, 0, step, step', d, h, h', h'' => by
    simp only [OnceLayout.runAll, OnceLayout.asListsAll, Layout.runItAll, OnceLayout.usesAll, List.getElem?_cons_zero, Option.some.injEq] at h h' h''
    subst h h' h''
    exact OnceLayout.run_lists f l hfl.1
  | l :: ls, hfl, i + 1, step, step', d, h, h', h'' => by
    simp only [OnceLayout.runAll, OnceLayout.asListsAll, Layout.runItAll, OnceLayout.usesAll, List.getElem?_cons_succ] at h h' h''
    exact OnceLayout.runAll_lists f ls hfl.2 i step step' d h h' h''
end

mutual
theorem Layout.noIterators_asLists : ∀ l : Layout L, l.noIterators.asLists = l
  | .organizer cut elems => by simp only [Layout.noIterators, OnceLayout.asLists, Layout.noIterators_asListsAll elems]
  | .organizerRP cut i => rfl
  | .pattern p => rfl
  | .label l => rfl

theorem Layout.noIterators_asListsAll : ∀ ls : List (Layout L), OnceLayout.asListsAll (Layout.noIteratorsAll ls) = ls
  | [] => rfl
  | l :: ls => by simp only [Layout.noIteratorsAll, OnceLayout.asListsAll, Layout.noIterators_asLists l, Layout.noIterators_asListsAll ls]
end

mutual
theorem Layout.noIterators_filled : ∀ l : Layout L, l.noIterators.Filled
  | .organizer cut elems => ⟨by cases cut <;> trivial, Layout.noIterators_filledAll elems⟩
  | .organizerRP cut i => by cases cut <;> trivial
  | .pattern p => trivial
  | .label l => trivial

theorem Layout.noIterators_filledAll : ∀ ls : List (Layout L), OnceLayout.FilledAll (Layout.noIteratorsAll ls)
  | [] => trivial
  | l :: ls => ⟨Layout.noIterators_filled l, Layout.noIterators_filledAll ls⟩
end

theorem usesInTurns_empty {ds : List (Span → List Nat)} (h : ∀ d ∈ ds, ∀ s, d s = []) : ∀ (ss : List Span) (n : Nat), usesInTurns ds n ss = []
  | [], _ => rfl
  | s :: ss, n => by
    simp only [usesInTurns]
    cases hc : cyclic ds n with
    | none => rfl
    | some d =>
      have : d ∈ ds := List.mem_of_getElem? hc
      simp only [h d this s, List.nil_append]
      exact usesInTurns_empty h ss (n + 1)

mutual
theorem Layout.noIterators_uses (f : Frame) : ∀ (l : Layout L) (s : Span), l.noIterators.uses f s = []
  | .organizer cut elems, s => by
    simp only [Layout.noIterators, OnceLayout.uses, Option.toList_none, List.nil_append]
    cases f.cut s cut with
    | error e => rfl
    | ok ss => exact usesInTurns_empty (Layout.noIterators_usesAll f elems) ss 0
  | .organizerRP cut i, s => rfl
  | .pattern p, s => rfl
  | .label l, s => rfl

theorem Layout.noIterators_usesAll (f : Frame) : ∀ (ls : List (Layout L)), ∀ d ∈ OnceLayout.usesAll f (Layout.noIteratorsAll ls), ∀ s, d s = []
  | [], d, h, _ => by simp [Layout.noIteratorsAll, OnceLayout.usesAll] at h
  | l :: ls, d, h, s => by
    simp only [Layout.noIteratorsAll, OnceLayout.usesAll, List.mem_cons] at h
    rcases h with h | h
    · subst h; exact Layout.noIterators_uses f l s
    · exact Layout.noIterators_usesAll f ls d h s
end

end TB
