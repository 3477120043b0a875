import Verif.Model.ByHand
import Verif.Props.Attempt
import Verif.Props.Reuse
/-!
# C117: RememberingPatterns in the hands of the user
-/
namespace TB
open TB.Ex
variable {L : Type}

/-- Steps which only look at a RememberingPattern. -/
def RPStep.Looks : RPStep L → Prop
  | .item _ _ => True
  | .length _ => True
  | .truth _ => True
  | _ => False

theorem RPObjects.step_looks (o : RPObjects L) {s : RPStep L} (h : s.Looks) : (o.step s).1 = o := by
  cases s <;> simp only [RPStep.Looks] at h
  · simp only [RPObjects.step]; split <;> rfl
  · rfl
  · rfl

theorem RPObjects.step_made (o : RPObjects L) (s : RPStep L) {id : Nat} {xs : List L} (h : o.made[id]? = some xs) : (o.step s).1.made[id]? = some xs := by
  cases s with
  | create labels =>
    have : id < o.made.length := (List.getElem?_eq_some_iff.1 h).1
    simp only [RPObjects.step]
    rw [List.getElem?_append_left this, h]
  | draw j => simp only [RPObjects.step]; split <;> exact h
  | item j i => simp only [RPObjects.step]; split <;> exact h
  | length j => exact h
  | truth j => exact h
  | build a => simp only [RPObjects.step]; split <;> exact h

theorem RPObjects.run_made {id : Nat} {xs : List L} : ∀ (ss : List (RPStep L)) (o : RPObjects L), o.made[id]? = some xs →
    (RPObjects.run ss o).1.made[id]? = some xs
  | [], _, h => h
  | s :: ss, o, h => RPObjects.run_made ss _ (o.step_made s h)

theorem RPObjects.run_append : ∀ (ss ts : List (RPStep L)) (o : RPObjects L),
    RPObjects.run (ss ++ ts) o = ((RPObjects.run ts (RPObjects.run ss o).1).1, (RPObjects.run ss o).2 ++ (RPObjects.run ts (RPObjects.run ss o).1).2)
  | [], ts, o => rfl
  | s :: ss, ts, o => by
    simp only [List.cons_append, RPObjects.run, RPObjects.run_append ss ts]

/-- What a step takes from the RememberingPattern `id` which has handed out `q` labels so far: by hand one label; a timeboard
takes what its layout needs, and nothing if the layout does not contain the pattern; all other steps take nothing. -/
def RPStep.Takes (id : Nat) (xs : List L) (q : Nat) (s : RPStep L) (x : RPAnswer L) (k : Nat) : Prop :=
  match s with
  | .draw j => if j = id then k = 1 ∧ ∃ l, x = .label l ∧ cyclic xs q = some l else k = 0
  | .build a => k ≤ (a.draws id).length ∧ (¬ a.layout.UsesRP id → k = 0) ∧
    ∀ tb, x = .timeboard tb → k = (a.draws id).length ∧
      ∀ (n : Nat) (u : Int), (a.draws id)[n]? = some (some u) →
        ∃ i w, 0 ≤ i ∧ i < tb.timeline.len ∧ Workshift.new tb i = .ok w ∧ w.startTime tb = .ok (tb.timeline.frame.unitStart u) ∧
          ((∀ t v, (t, v) ∈ a.amendments → ¬ tb.At t i) → cyclic xs (q + n) = some w.label)
  | _ => k = 0

theorem RPObjects.step_madeOf (o : RPObjects L) (s : RPStep L) {id : Nat} {xs : List L} (hm : id < o.made.length)
    (h : (o.heap id).MadeOf xs) : ((o.step s).1.heap id).MadeOf xs := by
  cases s with
  | create labels =>
    simp only [RPObjects.step]
    rw [Heap.set_other _ _ (by omega)]
    exact h
  | draw j =>
    simp only [RPObjects.step]
    split
    · exact h
    · next l c hn =>
      by_cases hj : j = id
      · subst hj
        simp only
        rw [Heap.set_same]
        exact h.next_some hn
      · simp only
        rw [Heap.set_other _ _ (fun e => hj e.symm)]
        exact h
  | item j i => rw [RPObjects.step_looks o (s := .item j i) trivial]; exact h
  | length j => exact h
  | truth j => exact h
  | build a =>
    have := Timeboard.attempts_madeOf [a] o.heap id xs h
    simp only [Timeboard.attempts] at this
    simp only [RPObjects.step]
    generalize Timeboard.attempt a o.heap = z at *
    rcases z with ⟨g, _ | _⟩ <;> exact this

theorem RPObjects.run_madeOf {id : Nat} {xs : List L} : ∀ (ss : List (RPStep L)) (o : RPObjects L), id < o.made.length → (o.heap id).MadeOf xs →
    ((RPObjects.run ss o).1.heap id).MadeOf xs
  | [], _, _, h => h
  | s :: ss, o, hm, h => RPObjects.run_madeOf ss _ (by
      have := o.step_made s (List.getElem?_eq_getElem hm)
      exact (List.getElem?_eq_some_iff.1 this).1) (o.step_madeOf s hm h)

theorem inTurns_nil {ds : List (Span → List (Option Int))} (h : ∀ d ∈ ds, ∀ s, d s = []) (ss : List Span) : inTurns ds ss = [] := by
  unfold inTurns
  rw [List.flatMap_eq_nil_iff]
  intro si _
  split
  · next d hd => exact h d (List.mem_of_getElem? hd) _
  · rfl

mutual
theorem Layout.draws_unused (f : Frame) {id : Nat} : ∀ (l : Layout L), ¬ l.UsesRP id → ∀ s, Layout.draws f id l s = []
  | .organizer cut elems, h, s => by
    simp only [Layout.draws]
    split
    · rfl
    · exact inTurns_nil (Layout.drawsAll_unused f elems (fun l hl hu => h (hu.elem hl))) _
  | .organizerRP cut j, h, s => by
    simp only [Layout.draws]
    split
    · rfl
    · rw [if_neg]
      rintro rfl
      exact h (.inr ⟨cut, .here⟩)
  | .pattern (.rp j), h, s => by
    simp only [Layout.draws]
    rw [if_neg]
    rintro rfl
    exact h (.inl .here)
  | .pattern (.list _), _, s => by simp only [Layout.draws]
  | .label _, _, s => by simp only [Layout.draws]

theorem Layout.drawsAll_unused (f : Frame) {id : Nat} : ∀ (ls : List (Layout L)), (∀ l ∈ ls, ¬ l.UsesRP id) →
    ∀ d ∈ Layout.drawsAll f id ls, ∀ s, d s = []
  | [], _, d, hd => by simp [Layout.drawsAll] at hd
  | l :: ls, h, d, hd => by
    simp only [Layout.drawsAll, List.mem_cons] at hd
    rcases hd with rfl | hd
    · exact Layout.draws_unused f l (h l (by simp))
    · exact Layout.drawsAll_unused f ls (fun l hl => h l (by simp [hl])) d hd
end

theorem Args.draws_unused {a : Args L} {id : Nat} (h : ¬ a.layout.UsesRP id) : (a.draws id).length = 0 := by
  unfold Args.draws
  split
  · next org f ho hf =>
    rw [Layout.draws_unused f org (fun hu => h (makeOrganizer_usesRP ho hu))]; rfl
  · rfl

theorem Args.attempt_draws (a : Args L) {heap : Heap L} {id : Nat} {xs : List L} {p : Nat} (hp : (heap id).HandedOut xs p) :
    ∃ k, k ≤ (a.draws id).length ∧ ((Timeboard.attempt a heap).1 id).HandedOut xs (p + k) := by
  unfold Args.draws
  split
  · next org f ho hf => exact C88_draws ho hf hp
  · next hx =>
    refine ⟨0, Nat.le_refl _, ?_⟩
    have : (Timeboard.attempt a heap).1 = heap := by
      unfold Timeboard.attempt
      cases ho : makeOrganizer a.layout with
      | error e => rfl
      | ok org =>
        simp only
        split
        · rfl
        · cases hf : Frame.new a.freq a.start a.stop with
          | error e => rfl
          | ok f => exact absurd hf (hx org f ho)
    rw [this]; exact hp

theorem RPObjects.step_takes (o : RPObjects L) (s : RPStep L) {id : Nat} {xs : List L} {p : Nat} (hm : id < o.made.length)
    (hp : (o.heap id).HandedOut xs p) :
    ∃ k, s.Takes id xs p (o.step s).2 k ∧ ((o.step s).1.heap id).HandedOut xs (p + k) := by
  cases s with
  | create labels =>
    refine ⟨0, rfl, ?_⟩
    simp only [RPObjects.step]
    rw [Heap.set_other _ _ (by omega)]
    exact hp
  | draw j =>
    by_cases hj : j = id
    · subst hj
      obtain ⟨x, c', h1, h2, h3⟩ := hp.next
      refine ⟨1, ?_, ?_⟩
      · simp only [RPStep.Takes, RPObjects.step, h1, if_true]
        exact ⟨trivial, x, rfl, h2⟩
      · simp only [RPObjects.step, h1]
        rw [Heap.set_same]
        exact h3
    · refine ⟨0, by simp [RPStep.Takes, hj], ?_⟩
      simp only [RPObjects.step]
      split
      · exact hp
      · simp only
        rw [Heap.set_other _ _ (fun e => hj e.symm)]
        exact hp
  | item j i => exact ⟨0, rfl, by rw [RPObjects.step_looks o (s := .item j i) trivial]; exact hp⟩
  | length j => exact ⟨0, rfl, hp⟩
  | truth j => exact ⟨0, rfl, hp⟩
  | build a =>
    simp only [RPObjects.step, RPStep.Takes]
    cases hr : Timeboard.attempt a o.heap with
    | mk heap r =>
    cases r with
    | ok tb =>
      simp only
      have hn : Timeboard.new a o.heap = .ok (tb, heap) := by
        have := (C88_outcome a o.heap).2 tb
        rw [hr] at this
        exact this.1 rfl
      obtain ⟨g1, g2⟩ := C09_amended hn hp
      by_cases hu : a.layout.UsesRP id
      · exact ⟨(a.draws id).length, ⟨Nat.le_refl _, fun h => absurd hu h, fun t ht => by cases ht; exact ⟨rfl, g2⟩⟩, g1⟩
      · have e0 : (a.draws id).length = 0 := Args.draws_unused hu
        exact ⟨0, ⟨Nat.zero_le _, fun _ => rfl, fun t ht => by cases ht; exact ⟨e0.symm, g2⟩⟩, by rw [e0] at g1; exact g1⟩
    | error e =>
      simp only
      by_cases hu : a.layout.UsesRP id
      · obtain ⟨k, k1, k2⟩ := Args.attempt_draws a hp
        rw [hr] at k2
        exact ⟨k, ⟨k1, fun h => absurd hu h, fun t ht => by cases ht⟩, k2⟩
      · have := (C88_untouched (a := a) (heap := o.heap)).1 id hu
        rw [hr] at this
        refine ⟨0, ⟨Nat.zero_le _, fun _ => rfl, fun t ht => by cases ht⟩, ?_⟩
        simp only at this
        rw [this]; exact hp

/-- **C117**: whatever a program does, a RememberingPattern hands out its labels in turn: each label taken by hand, and each label
given to a workshift of a timeboard, is the one after the label handed out before. -/
theorem C117_in_turn {id : Nat} {xs : List L} : ∀ (ss : List (RPStep L)) (o : RPObjects L) {p : Nat}, id < o.made.length → (o.heap id).HandedOut xs p →
    ∃ ks : List Nat, ks.length = ss.length ∧ (RPObjects.run ss o).2.length = ss.length ∧
      ((RPObjects.run ss o).1.heap id).HandedOut xs (p + ks.sum) ∧
      ∀ (j : Nat) (s : RPStep L) (x : RPAnswer L) (k : Nat), ss[j]? = some s → (RPObjects.run ss o).2[j]? = some x → ks[j]? = some k →
        s.Takes id xs (p + (ks.take j).sum) x k := by
  intro ss
  induction ss with
  | nil => intro o p _ hp; exact ⟨[], rfl, rfl, hp, fun j s x k hs => by simp at hs⟩
  | cons s ss ih =>
    intro o p hm hp
    obtain ⟨k, k1, k2⟩ := o.step_takes s hm hp
    have hm' : id < (o.step s).1.made.length := by
      have := o.step_made s (List.getElem?_eq_getElem hm)
      exact (List.getElem?_eq_some_iff.1 this).1
    obtain ⟨ks, e1, e2, e3, e4⟩ := ih (o.step s).1 hm' k2
    refine ⟨k :: ks, by simp [e1], by simp [RPObjects.run, e2], ?_, ?_⟩
    · rw [List.sum_cons, ← Nat.add_assoc]; exact e3
    · intro j s' x k' hs hx hk
      cases j with
      | zero =>
        simp only [RPObjects.run, List.getElem?_cons_zero, Option.some.injEq] at hs hx hk
        subst hs; subst hx; subst hk
        simpa using k1
      | succ j =>
        simp only [RPObjects.run, List.getElem?_cons_succ] at hs hx hk
        have := e4 j s' x k' hs hx hk
        rw [List.take_succ_cons, List.sum_cons, ← Nat.add_assoc]
        exact this

/-- **C117**: a new RememberingPattern starts with its first label, whatever was done with others, also with others made of the same
labels; one without labels has nothing to hand out. -/
theorem C117_new (ss ts : List (RPStep L)) (o : RPObjects L) (xs : List L) :
    let o1 := (RPObjects.run ss o).1
    let r := RPObjects.run (.create xs :: ts) o1
    (∃ rest, r.2 = .object o1.made.length :: rest) ∧ r.1.made[o1.made.length]? = some xs ∧
    (xs ≠ [] → ∃ ks : List Nat, ks.length = ts.length ∧ (r.1.heap o1.made.length).HandedOut xs ks.sum ∧
      ∀ (j : Nat) (s : RPStep L) (x : RPAnswer L) (k : Nat), ts[j]? = some s → r.2[j + 1]? = some x → ks[j]? = some k →
        s.Takes o1.made.length xs (ks.take j).sum x k) ∧
    (xs = [] → (r.1.step (.draw o1.made.length)).2 = .stopIteration) := by
  intro o1 r
  have hr : r = RPObjects.run (.create xs :: ts) o1 := rfl
  have hm : (o1.step (.create xs)).1.made[o1.made.length]? = some xs := by simp [RPObjects.step]
  refine ⟨⟨_, rfl⟩, ?_, ?_, ?_⟩
  · exact RPObjects.run_made ts _ hm
  · intro hne
    have hp : ((o1.step (.create xs)).1.heap o1.made.length).HandedOut xs 0 := by
      simp only [RPObjects.step]
      rw [Heap.set_same]
      exact Cycle.handedOut_start hne
    obtain ⟨ks, e1, _, e3, e4⟩ := C117_in_turn ts (o1.step (.create xs)).1 (List.getElem?_eq_some_iff.1 hm).1 hp
    simp only [Nat.zero_add] at e3 e4
    exact ⟨ks, e1, e3, fun j s x k hs hx hk => e4 j s x k hs (by simpa [hr, RPObjects.run] using hx) hk⟩
  · rintro rfl
    have hp : ((o1.step (.create [])).1.heap o1.made.length).MadeOf ([] : List L) := by
      simp only [RPObjects.step]
      rw [Heap.set_same]
      exact .inl ⟨rfl, rfl⟩
    have := RPObjects.run_madeOf ts _ (List.getElem?_eq_some_iff.1 hm).1 hp
    have hh : r.1.heap o1.made.length = Cycle.start [] := by
      rcases this with ⟨_, h⟩ | ⟨p, h⟩
      · exact h
      · exact absurd rfl h.1
    simp only [RPObjects.step, hh]
    rfl

/-- **C117**: asking a RememberingPattern for its labels, their number or its truth value tells about the labels it was made of, whatever
was done with it before, and makes no difference to anything that follows. -/
theorem C117_looking (ss ts : List (RPStep L)) (o : RPObjects L) {id : Nat} {xs : List L} (h : o.made[id]? = some xs) :
    let o1 := (RPObjects.run ss o).1
    (∀ i l, (o1.step (.item id i)).2 = .label l ↔ (0 ≤ i ∧ xs[i.toNat]? = some l) ∨ (i < 0 ∧ 0 ≤ i + xs.length ∧ xs[(i + xs.length).toNat]? = some l)) ∧
    (∀ i, (o1.step (.item id i)).2 = .raised .indexError ↔ i < -(xs.length : Int) ∨ (xs.length : Int) ≤ i) ∧
    (o1.step (.length id)).2 = .number xs.length ∧ ((o1.step (.truth id)).2 = .flag true ↔ xs ≠ []) ∧
    ∀ s : RPStep L, s.Looks → (RPObjects.run (ss ++ s :: ts) o).1 = (RPObjects.run (ss ++ ts) o).1 ∧
      (RPObjects.run (ss ++ s :: ts) o).2 = (RPObjects.run ss o).2 ++ (o1.step s).2 :: (RPObjects.run ts o1).2 ∧
      (RPObjects.run (ss ++ ts) o).2 = (RPObjects.run ss o).2 ++ (RPObjects.run ts o1).2 := by
  intro o1
  have hm : o1.made[id]? = some xs := RPObjects.run_made ss o h
  refine ⟨?_, ?_, ?_, ?_, ?_⟩
  · intro i l
    simp only [RPObjects.step, hm, Option.getD_some]
    unfold pyGet?
    split
    · next hx =>
      split at hx
      · constructor
        · intro hc; cases hc
        · rintro (⟨_, h2⟩ | ⟨h1, _⟩)
          · rw [hx] at h2; cases h2
          · omega
      · split at hx
        · constructor
          · intro hc; cases hc
          · rintro (⟨h1, _⟩ | ⟨_, _, h2⟩)
            · omega
            · rw [hx] at h2; cases h2
        · constructor
          · intro hc; cases hc
          · rintro (⟨h1, _⟩ | ⟨_, h1, _⟩) <;> omega
    · next l' hx =>
      simp only [RPAnswer.label.injEq]
      split at hx
      · constructor
        · rintro rfl; exact .inl ⟨by assumption, hx⟩
        · rintro (⟨_, h2⟩ | ⟨h1, _⟩)
          · rw [hx] at h2; cases h2; rfl
          · omega
      · split at hx
        · constructor
          · rintro rfl; exact .inr ⟨by omega, by assumption, hx⟩
          · rintro (⟨h1, _⟩ | ⟨_, _, h2⟩)
            · omega
            · rw [hx] at h2; cases h2; rfl
        · cases hx
  · intro i
    simp only [RPObjects.step, hm, Option.getD_some]
    unfold pyGet?
    split
    · next hx =>
      simp only [true_iff]
      split at hx
      · have := List.getElem?_eq_none_iff.1 hx; omega
      · split at hx
        · have := List.getElem?_eq_none_iff.1 hx; omega
        · omega
    · next l' hx =>
      constructor
      · intro hc; cases hc
      · intro hi
        split at hx
        · have := (List.getElem?_eq_some_iff.1 hx).1; omega
        · split at hx
          · have := (List.getElem?_eq_some_iff.1 hx).1; omega
          · cases hx
  · simp only [RPObjects.step, hm, Option.getD_some]
  · simp only [RPObjects.step, hm, Option.getD_some, RPAnswer.flag.injEq, decide_eq_true_eq]
    exact List.length_pos_iff
  · intro s hs
    have e := o1.step_looks hs
    refine ⟨?_, ?_, ?_⟩
    · rw [RPObjects.run_append, RPObjects.run_append]
      show (RPObjects.run ts (o1.step s).1).1 = _
      rw [e]
    · rw [RPObjects.run_append]
      show (RPObjects.run ss o).2 ++ (o1.step s).2 :: (RPObjects.run ts (o1.step s).1).2 = _
      rw [e]
    · rw [RPObjects.run_append]

/-- The answers as numbers and lists of labels of timeboards. -/
def RPAnswer.show : RPAnswer Int → Except Err (List Int)
  | .object id => .ok [id]
  | .label l => .ok [l]
  | .number n => .ok [n]
  | .flag b => .ok [if b then 1 else 0]
  | .timeboard tb => .ok tb.timeline.labels
  | .raised e => .error e
  | .stopIteration => .error .runtimeError

/-- Two RememberingPatterns of the same labels; labels are taken by hand before and after timeboards are made, one of which is
refused. -/
example : (RPObjects.run [.create [1, 2, 3], .create [1, 2, 3], .draw 0, .build reuseArgs, .draw 0, .draw 1, .length 0, .item 0 (-1), .item 0 3,
      .build { reuseArgs with worktimeSource := "x" }, .draw 0, .create [], .draw 2, .truth 2] { made := [], heap := fun _ => Cycle.start [] }).2.map RPAnswer.show =
    [.ok [0], .ok [1], .ok [1], .ok [2, 9, 1, 2], .ok [3], .ok [1], .ok [3], .ok [3], .error .indexError,
      .error .valueError, .ok [1], .ok [2], .error .runtimeError, .ok [0]] := by decide +kernel

end TB
