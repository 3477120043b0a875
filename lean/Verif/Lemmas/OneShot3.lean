import Verif.Lemmas.OneShot2
/-! Timeboards with iterators in all places of the layout. -/
namespace TB
variable {L : Type}

theorem Timeboard.newOnce_like {a : Args L} {l : OnceLayout L} {l' : Layout L} {org : OnceLayout L} {org' : Layout L} {heap : Heap L} {u : Drawn}
    (ho : makeOrganizerOnce l = .ok org) (ho' : makeOrganizer l' = .ok org')
    (h : ∀ f, Frame.new a.freq a.start a.stop = .ok f → ∀ tl, (OnceLayout.run f org f.whole { tl := tl, drawn := u }).map OnceState.tl = Layout.runIt f org' f.whole tl) :
    (Timeboard.newOnce a l heap u).map (fun r => (r.1, r.2.1)) = Timeboard.newIt { a with layout := l' } heap := by
  simp only [Timeboard.newOnce, Timeboard.newIt, ho, ho']
  by_cases hw : a.worktimeSource ∉ ["duration", "labels"]
  · rw [if_pos hw, if_pos hw]; rfl
  · rw [if_neg hw, if_neg hw]
    cases hf : Frame.new a.freq a.start a.stop with
    | error e => rfl
    | ok f =>
      have hk := h f hf { labels := fun _ => a.defaultLabel, mask := fun _ => true, heap := heap }
      simp only [Timeline.newIt]
      unfold Frame.whole at hk
      rw [← hk]
      cases OnceLayout.run f org { first := 0, last := (f.n : Int) - 1 }
        { tl := { labels := fun _ => a.defaultLabel, mask := fun _ => true, heap := heap }, drawn := u } with
      | error e => rfl
      | ok st =>
        simp only [Except.map]
        generalize Timeline.amend _ a.amendments = r
        cases r <;> rfl

theorem Timeboard.newOnce_same {a : Args L} {l : OnceLayout L} {l' : Layout L} {org : OnceLayout L} {org' : Layout L} {heap : Heap L} {u : Drawn}
    (ho : makeOrganizerOnce l = .ok org) (ho' : makeOrganizer l' = .ok org') (g : Drawn)
    (h : ∀ f, Frame.new a.freq a.start a.stop = .ok f → ∀ tl, OnceLayout.run f org f.whole { tl := tl, drawn := u } =
      (Layout.runIt f org' f.whole tl).map (fun tl => { tl := tl, drawn := g })) :
    Timeboard.newOnce a l heap u = (Timeboard.newIt { a with layout := l' } heap).map (fun r => (r.1, r.2, g)) := by
  simp only [Timeboard.newOnce, Timeboard.newIt, ho, ho']
  by_cases hw : a.worktimeSource ∉ ["duration", "labels"]
  · rw [if_pos hw, if_pos hw]; rfl
  · rw [if_neg hw, if_neg hw]
    cases hf : Frame.new a.freq a.start a.stop with
    | error e => rfl
    | ok f =>
      have hk := h f hf { labels := fun _ => a.defaultLabel, mask := fun _ => true, heap := heap }
      simp only [Timeline.newIt]
      unfold Frame.whole at hk
      rw [hk]
      cases Layout.runIt f org' { first := 0, last := (f.n : Int) - 1 } { labels := fun _ => a.defaultLabel, mask := fun _ => true, heap := heap } with
      | error e => rfl
      | ok st =>
        simp only [Except.map]
        generalize Timeline.amend _ a.amendments = r
        cases r <;> rfl

theorem Frame.whole_inside {a : Args L} {f : Frame} (h : Frame.new a.freq a.start a.stop = .ok f) :
    0 ≤ f.whole.first ∧ f.whole.first ≤ f.whole.last ∧ f.whole.last < (f.n : Int) := by
  have := Frame.new_valid h
  unfold Frame.Valid at this
  simp only [Frame.whole]
  omega

theorem Amounts.map {f : Frame} {step : OnceStep L} {r : Unroll L} (h : Amounts f step r) {s : Span} (hs : 0 ≤ s.first ∧ s.first ≤ s.last ∧ s.last < (f.n : Int))
    (tl : TLState L) (u : Drawn) : step s { tl := tl, drawn := u } = (Layout.runIt f (r s u).1 s tl).map (fun tl => { tl := tl, drawn := (r s u).2 }) := by
  rw [h s _ hs.1 hs.2.1 hs.2.2]
  cases Layout.runIt f (r s u).1 s tl <;> rfl

theorem LikeLists.map {f : Frame} {step : OnceStep L} {step' : Step L} {d : Span → List Nat} (h : LikeLists f step step' d) {s : Span}
    (hs : 0 ≤ s.first ∧ s.first ≤ s.last ∧ s.last < (f.n : Int)) (tl : TLState L) {u : Drawn} (h1 : (d s).Nodup) (h2 : ∀ id ∈ d s, u id = 0) :
    (step s { tl := tl, drawn := u }).map OnceState.tl = step' s tl := by
  rcases h s { tl := tl, drawn := u } hs.1 hs.2.1 hs.2.2 h1 h2 with ⟨e, e1, e2⟩ | ⟨t, g, e1, e2, _⟩
  · rw [e1, e2]; rfl
  · rw [e1, e2]; rfl

theorem Timeboard.newOnce_unrolled (a : Args L) (l : OnceLayout L) (heap : Heap L) (u : Drawn) :
    Timeboard.newOnce a l heap u = (Timeboard.newIt { a with layout := (a.unrolled l u).1 } heap).map (fun r => (r.1, r.2, (a.unrolled l u).2)) := by
  unfold Args.unrolled
  rw [Args.frame_eq]
  cases hf : Frame.new a.freq a.start a.stop with
  | error e =>
    cases l with
    | organizer c ci es ei => exact Timeboard.newOnce_same rfl rfl u (fun f h => by rw [hf] at h; cases h)
    | organizerRP c ci i => exact Timeboard.newOnce_same rfl rfl u (fun f h => by rw [hf] at h; cases h)
    | label l => rfl
    | pattern p =>
      cases p with
      | list xs => exact Timeboard.newOnce_same rfl rfl u (fun f h => by rw [hf] at h; cases h)
      | rp i => rfl
  | ok f =>
    simp only
    have key : ∀ (l : OnceLayout L), makeOrganizerOnce l = .ok l → makeOrganizer (l.unrolled f f.whole u).1 = .ok (l.unrolled f f.whole u).1 →
        Timeboard.newOnce a l heap u = (Timeboard.newIt { a with layout := (l.unrolled f f.whole u).1 } heap).map
          (fun r => (r.1, r.2, (l.unrolled f f.whole u).2)) := by
      intro l h1 h2
      refine Timeboard.newOnce_same h1 h2 _ (fun f' hf' tl => ?_)
      have hin := Frame.whole_inside hf'
      rw [hf] at hf'
      cases hf'
      exact (OnceLayout.run_unrolled f l).map hin tl u
    cases l with
    | organizer c ci es ei =>
      refine key _ rfl ?_
      simp only [OnceLayout.unrolled]
      cases f.cut f.whole (c.remaining ci u) <;> rfl
    | organizerRP c ci i => exact key _ rfl rfl
    | label l => rfl
    | pattern p =>
      cases p with
      | rp i => rfl
      | list xs =>
        refine Timeboard.newOnce_same rfl rfl u (fun f' hf' tl => ?_)
        have hin := Frame.whole_inside hf'
        rcases OnceLayout.run_lists f' (Layout.noIterators (.organizer (.marks []) [.pattern (.list xs)])) (Layout.noIterators_filled _) f'.whole
          { tl := tl, drawn := u } hin.1 hin.2.1 hin.2.2 (by rw [Layout.noIterators_uses]; simp) (by rw [Layout.noIterators_uses]; simp)
          with ⟨e, e1, e2⟩ | ⟨t, g, e1, e2, e3⟩
        · rw [Layout.noIterators_asLists] at e2
          rw [e2]
          exact e1
        · rw [Layout.noIterators_asLists] at e2
          rw [e2]
          refine e1.trans ?_
          have : g = u := funext (fun id => e3 id (by rw [Layout.noIterators_uses]; simp))
          rw [this]
          rfl

theorem Timeboard.newOnce_lists {a : Args L} {l : OnceLayout L} {heap : Heap L} {u : Drawn} (hfl : l.Filled)
    (h : ∀ f, a.frame = .ok f → (l.uses f f.whole).Nodup ∧ ∀ id ∈ l.uses f f.whole, u id = 0) :
    (Timeboard.newOnce a l heap u).map (fun r => (r.1, r.2.1)) = Timeboard.newIt { a with layout := l.asLists } heap := by
  have key : ∀ (l : OnceLayout L), l.Filled → (∀ f, a.frame = .ok f → (l.uses f f.whole).Nodup ∧ ∀ id ∈ l.uses f f.whole, u id = 0) →
      makeOrganizerOnce l = .ok l → makeOrganizer l.asLists = .ok l.asLists →
      (Timeboard.newOnce a l heap u).map (fun r => (r.1, r.2.1)) = Timeboard.newIt { a with layout := l.asLists } heap := by
    intro l hfl h h1 h2
    refine Timeboard.newOnce_like h1 h2 (fun f hf tl => ?_)
    have := h f (by rw [Args.frame_eq]; exact hf)
    exact (OnceLayout.run_lists f l hfl).map (Frame.whole_inside hf) tl this.1 this.2
  cases l with
  | organizer c ci es ei => exact key _ hfl h rfl rfl
  | organizerRP c ci i => exact key _ hfl h rfl rfl
  | label l => rfl
  | pattern p =>
    rw [Timeboard.newOnce_unrolled]
    have : (a.unrolled (.pattern p) u).1 = .pattern p := by
      unfold Args.unrolled; cases a.frame <;> rfl
    rw [this]
    simp only [OnceLayout.asLists]
    cases Timeboard.newIt { a with layout := .pattern p } heap <;> rfl

/-- What is left of the structure. -/
theorem OnceLayout.runAll_drop (f : Frame) : ∀ (k : Nat) (ls : List (OnceLayout L)), OnceLayout.runAll f (ls.drop k) = (OnceLayout.runAll f ls).drop k
  | 0, ls => by simp
  | k + 1, [] => rfl
  | k + 1, l :: ls => by simp only [List.drop_succ_cons, OnceLayout.runAll, OnceLayout.runAll_drop f k ls]

theorem Layout.noIteratorsAll_drop : ∀ (k : Nat) (ls : List (Layout L)), Layout.noIteratorsAll (ls.drop k) = (Layout.noIteratorsAll ls).drop k
  | 0, ls => by simp
  | k + 1, [] => rfl
  | k + 1, l :: ls => by simp only [List.drop_succ_cons, Layout.noIteratorsAll, Layout.noIteratorsAll_drop k ls]

theorem Layout.length_noIteratorsAll : ∀ (ls : List (Layout L)), (Layout.noIteratorsAll ls).length = ls.length
  | [] => rfl
  | l :: ls => by simp only [Layout.noIteratorsAll, List.length_cons, Layout.length_noIteratorsAll ls]

/-- An organizer with iterators whose elements have none. -/
theorem OnceLayout.run_outermost {f : Frame} {cut : Cut} {ci ei : Option Nat} {es : List (Layout L)} {s : Span} {tl : TLState L} {u : Drawn}
    (h0 : 0 ≤ s.first) (h1 : s.first ≤ s.last) (h2 : s.last < (f.n : Int)) (hne : ∀ i j, ci = some i → ei = some j → i ≠ j) :
    match f.cut s (cut.remaining ci u) with
    | .error e => OnceLayout.run f (.organizer cut ci (Layout.noIteratorsAll es) ei) s { tl := tl, drawn := u } = .error e ∧
        Layout.runIt f (.organizer (cut.remaining ci u) (es.drop (u.count ei))) s tl = .error e
    | .ok ss => OnceLayout.run f (.organizer cut ci (Layout.noIteratorsAll es) ei) s { tl := tl, drawn := u } =
        (Layout.runIt f (.organizer (cut.remaining ci u) (es.drop (u.count ei))) s tl).map
          (fun tl => { tl := tl, drawn := (u.after ci cut.size cut.size).after ei ss.length es.length }) := by
  rw [← Frame.cutSpan_eq _ h0 h1 h2]
  cases hc : f.cutSpan (cut.remaining ci u) s with
  | error e =>
    simp only [OnceLayout.run, Layout.runIt, Cut.seen_remaining, hc]
    exact ⟨trivial, trivial⟩
  | ok ss =>
    have ht := Frame.cutSpan_tiles hc
    simp only [OnceLayout.run, Layout.runIt, Cut.seen_remaining, hc, Cut.use_after, Drawn.upTo_after, OnceLayout.length_runAll, Layout.length_noIteratorsAll]
    have hleft : leftOf ei (u.after ci cut.size cut.size) (OnceLayout.runAll f (Layout.noIteratorsAll es)) =
        OnceLayout.runAll f (Layout.noIteratorsAll (es.drop (u.count ei))) := by
      rw [Layout.noIteratorsAll_drop, OnceLayout.runAll_drop]
      cases ei with
      | none => rfl
      | some j =>
        simp only [leftOf, Drawn.count]
        rw [Drawn.after_other]
        cases ci with
        | none => simp
        | some i => simpa using fun e : j = i => hne i j rfl rfl e.symm
    rw [hleft]
    generalize es.drop (u.count ei) = es'
    have huses := usesInTurns_empty (Layout.noIterators_usesAll f es') ss 0
    have hl := OnceLayout.runAll_lists f (Layout.noIteratorsAll es') (Layout.noIterators_filledAll es')
    rw [Layout.noIterators_asListsAll] at hl
    have hlen := OnceLayout.length_asListsAll f (Layout.noIteratorsAll es')
    rw [Layout.noIterators_asListsAll] at hlen
    rcases zipOnce_lists_start (st := { tl := tl, drawn := (u.after ci cut.size cut.size).after ei ss.length es.length })
        (steps' := Layout.runItAll f es') (ds := OnceLayout.usesAll f (Layout.noIteratorsAll es'))
        (by rw [OnceLayout.length_runAll, hlen]) (by rw [OnceLayout.length_runAll, OnceLayout.length_usesAll])
        hl ss (by intro x hx; have := ht.2.2.mem hx; omega) (by rw [huses]; simp) (by rw [huses]; simp) with ⟨e, k1, k2⟩ | ⟨t, g, k1, k2, k3⟩
    · rw [k1, k2]; rfl
    · rw [k1, k2]
      have : g = (u.after ci cut.size cut.size).after ei ss.length es.length := funext (fun id => k3 id (by rw [huses]; simp))
      rw [this]
      rfl

/-- An outermost organizer with iterators whose elements have none. -/
theorem Timeboard.newOnce_outermost (a : Args L) (heap : Heap L) (cut : Cut) (ci ei : Option Nat) (es : List (Layout L)) (u : Drawn)
    (hne : ∀ i j, ci = some i → ei = some j → i ≠ j) :
    (Timeboard.newOnce a (.organizer cut ci (Layout.noIteratorsAll es) ei) heap u).map (fun r => (r.1, r.2.1)) =
      Timeboard.newIt { a with layout := .organizer (cut.remaining ci u) (es.drop (u.count ei)) } heap ∧
    ∀ tb h u', Timeboard.newOnce a (.organizer cut ci (Layout.noIteratorsAll es) ei) heap u = .ok (tb, h, u') →
      ∃ f ss, a.frame = .ok f ∧ f.cut f.whole (cut.remaining ci u) = .ok ss ∧ u' = (u.after ci cut.size cut.size).after ei ss.length es.length := by
  constructor
  · refine Timeboard.newOnce_like rfl rfl (fun f hf tl => ?_)
    have hin := Frame.whole_inside hf
    have := OnceLayout.run_outermost (cut := cut) (ci := ci) (ei := ei) (es := es) (tl := tl) (u := u) hin.1 hin.2.1 hin.2.2 hne
    cases hc : f.cut f.whole (cut.remaining ci u) with
    | error e => rw [hc] at this; rw [this.1, this.2]; rfl
    | ok ss =>
      rw [hc] at this
      simp only at this
      rw [this]
      cases Layout.runIt f (.organizer (cut.remaining ci u) (es.drop (u.count ei))) f.whole tl <;> rfl
  · intro tb h u' he
    simp only [Timeboard.newOnce, makeOrganizerOnce] at he
    split at he
    · cases he
    · cases hf : Frame.new a.freq a.start a.stop with
      | error e => rw [hf] at he; cases he
      | ok f =>
        rw [hf] at he
        simp only at he
        have hin := Frame.whole_inside hf
        have := OnceLayout.run_outermost (cut := cut) (ci := ci) (ei := ei) (es := es)
          (tl := { labels := fun _ => a.defaultLabel, mask := fun _ => true, heap := heap }) (u := u) hin.1 hin.2.1 hin.2.2 hne
        cases hc : f.cut f.whole (cut.remaining ci u) with
        | error e =>
          rw [hc] at this
          have h1 := this.1
          unfold Frame.whole at h1
          rw [h1] at he; cases he
        | ok ss =>
          rw [hc] at this
          simp only at this
          refine ⟨f, ss, by rw [Args.frame_eq]; exact hf, hc, ?_⟩
          generalize Layout.runIt f (.organizer (cut.remaining ci u) (es.drop (u.count ei))) f.whole
            { labels := fun _ => a.defaultLabel, mask := fun _ => true, heap := heap } = r at this
          unfold Frame.whole at this
          rw [this] at he
          cases r with
          | error e => cases he
          | ok t =>
            simp only [Except.map] at he
            split at he
            · cases he
            · simp only [Except.ok.injEq, Prod.mk.injEq] at he
              exact he.2.2.symm

end TB
