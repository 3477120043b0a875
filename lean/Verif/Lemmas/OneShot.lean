import Verif.Spec.OneShot
import Verif.Lemmas.Iterators3
/-! Layouts with iterators in all places. -/
namespace TB
variable {L : Type}

theorem Cut.seen_remaining (c : Cut) (it : Option Nat) (u : Drawn) : c.seen it u = c.remaining it u := by
  cases it with
  | none => cases c <;> rfl
  | some id =>
    cases c with
    | marks ts => rfl
    | marker m =>
      simp only [Cut.seen, Cut.remaining]
      by_cases h : m.ats.length ≤ u id
      · rw [if_pos h, if_pos (List.drop_eq_nil_iff.2 h)]; rfl
      · rw [if_neg h, if_neg (fun e => h (List.drop_eq_nil_iff.1 e))]

theorem Drawn.all_after {α : Type} (u : Drawn) (it : Option Nat) (xs : List α) : u.all it xs = u.after it xs.length xs.length := by
  funext j
  cases it with
  | none => simp [Drawn.all, Drawn.after]
  | some id =>
    simp only [Drawn.all, Drawn.after, Drawn.set, Option.some.injEq]
    by_cases h : j = id
    · subst h; simp only [if_true]; omega
    · rw [if_neg h, if_neg (fun e => h e.symm)]

theorem Cut.use_after (c : Cut) (it : Option Nat) (u : Drawn) : c.use it u = u.after it c.size c.size := by
  cases c <;> exact Drawn.all_after u it _

theorem Drawn.upTo_after {α : Type} (u : Drawn) (it : Option Nat) (n : Nat) (xs : List α) : u.upTo it n xs = u.after it n xs.length := by
  funext j
  cases it with
  | none => simp [Drawn.upTo, Drawn.after]
  | some id =>
    simp only [Drawn.upTo, Drawn.after, Drawn.set, Option.some.injEq, List.length_drop]
    by_cases h : j = id
    · subst h; simp only [if_true]; omega
    · rw [if_neg h, if_neg (fun e => h e.symm)]

/-- A step which does what the layout does to which the element amounts. -/
def Amounts (f : Frame) (step : OnceStep L) (r : Unroll L) : Prop :=
  ∀ (s : Span) (st : OnceState L), 0 ≤ s.first → s.first ≤ s.last → s.last < (f.n : Int) →
    step s st = match Layout.runIt f (r s st.drawn).1 s st.tl with
      | .error e => .error e
      | .ok tl => .ok { tl := tl, drawn := (r s st.drawn).2 }

/-- Each span with its own layout. -/
def pairRun (f : Frame) : List Span → List (Layout L) → TLState L → Except Err (TLState L)
  | s :: ss, l :: ls, st => match Layout.runIt f l s st with
    | .error e => .error e
    | .ok st' => pairRun f ss ls st'
  | _, _, st => .ok st

theorem zipRun_pairs (f : Frame) : ∀ (ss : List Span) (ls : List (Layout L)) (saved : List (Step L)) (st : TLState L), ls.length = ss.length →
    zipRun ss { saved := saved, rest := Layout.runItAll f ls } st = pairRun f ss ls st
  | [], [], _, _, _ => rfl
  | s :: ss, l :: ls, saved, st, h => by
    simp only [zipRun, pairRun, Layout.runItAll, Cycle.next]
    cases Layout.runIt f l s st with
    | error e => rfl
    | ok st' => exact zipRun_pairs f ss ls saved st' (by simpa using h)

theorem unrollTurns_length {rs : List (Unroll L)} (h : rs ≠ []) : ∀ (ss : List Span) (n : Nat) (g : Drawn),
    (unrollTurns rs n ss g).1.length = ss.length
  | [], _, _ => rfl
  | s :: ss, n, g => by
    have hl := List.length_pos_iff.2 h
    obtain ⟨r, hr⟩ : ∃ r, cyclic rs n = some r := ⟨_, List.getElem?_eq_getElem (Nat.mod_lt n hl)⟩
    simp only [unrollTurns, hr, List.length_cons]
    rw [unrollTurns_length h ss]

theorem unrollTurns_nil (ss : List Span) (n : Nat) (g : Drawn) : unrollTurns ([] : List (Unroll L)) n ss g = ([], g) := by
  cases ss <;> rfl

theorem zipOnce_unroll {f : Frame} {steps : List (OnceStep L)} {rs : List (Unroll L)} (hl : steps.length = rs.length)
    (ha : ∀ (i : Nat) step r, steps[i]? = some step → rs[i]? = some r → Amounts f step r) :
    ∀ (ss : List Span) (c : Cycle (OnceStep L)) (p : Nat) (st : OnceState L), c.HandedOut steps p →
      (∀ s ∈ ss, 0 ≤ s.first ∧ s.first ≤ s.last ∧ s.last < f.n) →
      zipOnce ss c st = match pairRun f ss (unrollTurns rs p ss st.drawn).1 st.tl with
        | .error e => .error e
        | .ok tl => .ok { tl := tl, drawn := (unrollTurns rs p ss st.drawn).2 }
  | [], _, _, _, _, _ => rfl
  | s :: ss, c, p, st, hc, hs => by
    obtain ⟨step, c', e1, e2, e3⟩ := hc.next
    obtain ⟨r, hr⟩ : ∃ r, cyclic rs p = some r := by
      have := List.length_pos_iff.2 hc.1
      unfold cyclic
      exact ⟨_, List.getElem?_eq_getElem (Nat.mod_lt _ (by omega))⟩
    have hst := ha (p % steps.length) step r e2 (by rw [hl]; exact hr) s st (hs s (by simp)).1 (hs s (by simp)).2.1 (hs s (by simp)).2.2
    simp only [zipOnce, unrollTurns, e1, hr, pairRun, hst]
    cases Layout.runIt f (r s st.drawn).1 s st.tl with
    | error e => rfl
    | ok tl => exact zipOnce_unroll hl ha ss c' (p + 1) _ e3 (fun x hx => hs x (by simp [hx]))

theorem OnceLayout.length_runAll (f : Frame) : ∀ ls : List (OnceLayout L), (OnceLayout.runAll f ls).length = ls.length
  | [] => rfl
  | l :: ls => by simp [OnceLayout.runAll, OnceLayout.length_runAll f ls]

theorem OnceLayout.length_unrolledAll (f : Frame) : ∀ ls : List (OnceLayout L), (OnceLayout.unrolledAll f ls).length = ls.length
  | [] => rfl
  | l :: ls => by simp [OnceLayout.unrolledAll, OnceLayout.length_unrolledAll f ls]

theorem zipOnce_start {f : Frame} {steps : List (OnceStep L)} {rs : List (Unroll L)} (hl : steps.length = rs.length)
    (ha : ∀ (i : Nat) step r, steps[i]? = some step → rs[i]? = some r → Amounts f step r) (ss : List Span) (st : OnceState L)
    (hs : ∀ s ∈ ss, 0 ≤ s.first ∧ s.first ≤ s.last ∧ s.last < f.n) :
    zipOnce ss (Cycle.start steps) st = match zipRun ss (Cycle.start (Layout.runItAll f (unrollTurns rs 0 ss st.drawn).1)) st.tl with
        | .error e => .error e
        | .ok tl => .ok { tl := tl, drawn := (unrollTurns rs 0 ss st.drawn).2 } := by
  by_cases h : steps = []
  · subst h
    have : rs = [] := List.length_eq_zero_iff.1 (by simpa using hl.symm)
    subst this
    rw [unrollTurns_nil]
    cases ss <;> rfl
  · have h' : rs ≠ [] := by
      intro e; subst e; exact h (List.length_eq_zero_iff.1 (by simpa using hl))
    rw [zipOnce_unroll hl ha ss _ 0 st (Cycle.handedOut_start h) hs]
    rw [show zipRun ss (Cycle.start (Layout.runItAll f (unrollTurns rs 0 ss st.drawn).1)) st.tl = pairRun f ss (unrollTurns rs 0 ss st.drawn).1 st.tl from
      zipRun_pairs f ss _ _ _ (unrollTurns_length h' ss 0 _)]

mutual
theorem OnceLayout.run_unrolled (f : Frame) : ∀ l : OnceLayout L, Amounts f (OnceLayout.run f l) (OnceLayout.unrolled f l)
  | .organizer cut cutIt elems elemsIt => by
    intro s st h0 h1 h2
    simp only [OnceLayout.run, OnceLayout.unrolled, Cut.seen_remaining, ← Frame.cutSpan_eq (cut.remaining cutIt st.drawn) h0 h1 h2]
    cases hc : f.cutSpan (cut.remaining cutIt st.drawn) s with
    | error e => simp only [Layout.runIt, hc]
    | ok ss =>
      have ht := Frame.cutSpan_tiles hc
      simp only [Layout.runIt, hc, Cut.use_after, Drawn.upTo_after, OnceLayout.length_runAll]
      have hall := OnceLayout.runAll_unrolled f elems
      have hlen : (OnceLayout.runAll f elems).length = (OnceLayout.unrolledAll f elems).length := by
        rw [OnceLayout.length_runAll, OnceLayout.length_unrolledAll]
      have hs : ∀ x ∈ ss, 0 ≤ x.first ∧ x.first ≤ x.last ∧ x.last < f.n := by
        intro x hx
        have := ht.2.2.mem hx
        omega
      cases elemsIt with
      | none => exact zipOnce_start hlen hall ss _ hs
      | some id =>
        refine zipOnce_start (steps := (OnceLayout.runAll f elems).drop _) (by simp [hlen, Drawn.count]) ?_ ss _ hs
        intro i step r e1 e2
        rw [List.getElem?_drop] at e1 e2
        exact hall _ step r e1 e2
  | .organizerRP cut cutIt i => by
    intro s st h0 h1 h2
    simp only [OnceLayout.run, OnceLayout.unrolled, Cut.seen_remaining, Cut.use_after, Layout.runIt]
    cases hc : f.cutSpan (cut.remaining cutIt st.drawn) s with
    | error e => rfl
    | ok ss => rfl
  | .pattern p => by
    intro s st _ _ _
    simp only [OnceLayout.run, OnceLayout.unrolled, Layout.runIt, Step.once]
    cases applyPatternIt p s st.tl <;> rfl
  | .label l => by
    intro s st _ _ _
    rfl

theorem OnceLayout.runAll_unrolled (f : Frame) : ∀ (ls : List (OnceLayout L)) (i : Nat) step r,
    (OnceLayout.runAll f ls)[i]? = some step → (OnceLayout.unrolledAll f ls)[i]? = some r → Amounts f step r
  | [], _, _, _, h, _ => by simp [OnceLayout.runAll] at h
  | l :: ls, 0, step, r, h, h' => by
    simp only [OnceLayout.runAll, OnceLayout.unrolledAll, List.getElem?_cons_zero, Option.some.injEq] at h h'
    subst h h'
    exact OnceLayout.run_unrolled f l
  | l :: ls, i + 1, step, r, h, h' => by
    simp only [OnceLayout.runAll, OnceLayout.unrolledAll, List.getElem?_cons_succ] at h h'
    exact OnceLayout.runAll_unrolled f ls i step r h h'
end

end TB
