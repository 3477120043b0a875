import Verif.Lemmas.Attempt
import Verif.Props.Layout
import Verif.Props.Construct
/-!
# C88: What a failed construction leaves behind
-/
namespace TB
open TB.Ex
variable {L : Type}

/-- **C88**: an attempt ends as the construction does, and when it succeeds it leaves RememberingPatterns as the construction does. -/
theorem C88_outcome (a : Args L) (heap : Heap L) :
    (∀ e, (Timeboard.attempt a heap).2 = .error e ↔ Timeboard.new a heap = .error e) ∧
    (∀ tb, (Timeboard.attempt a heap).2 = .ok tb ↔ Timeboard.new a heap = .ok (tb, (Timeboard.attempt a heap).1)) := by
  rw [Timeboard.attempt_new]
  rcases Timeboard.attempt a heap with ⟨h, e | tb⟩ <;> simp

theorem Timeboard.attempt_sips (a : Args L) (heap : Heap L) {id : Nat} {xs : List L} {p : Nat} (hp : (heap id).HandedOut xs p) :
    ∃ k, ((Timeboard.attempt a heap).1 id).HandedOut xs (p + k) ∧
      (∀ org f, makeOrganizer a.layout = .ok org → Frame.new a.freq a.start a.stop = .ok f →
        k ≤ (Layout.draws f id org { first := 0, last := (f.n : Int) - 1 }).length) := by
  unfold Timeboard.attempt
  cases ho : makeOrganizer a.layout with
  | error e => exact ⟨0, hp, fun _ _ _ _ => Nat.zero_le _⟩
  | ok org =>
    simp only
    split
    · exact ⟨0, hp, fun _ _ _ _ => Nat.zero_le _⟩
    · cases hf : Frame.new a.freq a.start a.stop with
      | error e => exact ⟨0, hp, fun _ _ _ _ => Nat.zero_le _⟩
      | ok f =>
        simp only
        have hn : 0 < f.n := Frame.new_valid hf
        obtain ⟨k, k1, k2⟩ := Layout.attempt_sips f id org { first := 0, last := (f.n : Int) - 1 }
          { labels := fun _ => a.defaultLabel, mask := fun _ => true, heap := heap } xs p (by simp only; omega) hp
        refine ⟨k, ?_, fun org' f' h1 h2 => by cases h1; cases h2; exact k1⟩
        generalize Layout.attempt f org _ _ = z at *
        rcases z with ⟨st, _ | e⟩
        · simp only
          generalize Timeline.amend _ _ = w
          cases w <;> exact k2
        · exact k2

/-- **C88**: whatever timeboards were attempted and however the attempts ended, a RememberingPattern goes on with its labels where
it has stopped. -/
theorem C88_uninterrupted (as : List (Args L)) : ∀ (heap : Heap L) {id : Nat} {xs : List L} {p : Nat}, (heap id).HandedOut xs p →
    ∃ k, ((Timeboard.attempts as heap) id).HandedOut xs (p + k) := by
  induction as with
  | nil => intro heap id xs p h; exact ⟨0, h⟩
  | cons a as ih =>
    intro heap id xs p h
    obtain ⟨k, h1, _⟩ := Timeboard.attempt_sips a heap h
    obtain ⟨k', h2⟩ := ih _ h1
    exact ⟨k + k', by rw [← Nat.add_assoc]; exact h2⟩

/-- **C88**: a failed construction draws no more labels from a RememberingPattern than the completed construction would. -/
theorem C88_draws {a : Args L} {heap : Heap L} {id : Nat} {xs : List L} {p : Nat} {org : Layout L} {f : Frame}
    (ho : makeOrganizer a.layout = .ok org) (hf : Frame.new a.freq a.start a.stop = .ok f) (hp : (heap id).HandedOut xs p) :
    ∃ k, k ≤ (Layout.draws f id org { first := 0, last := (f.n : Int) - 1 }).length ∧
      ((Timeboard.attempt a heap).1 id).HandedOut xs (p + k) := by
  obtain ⟨k, h1, h2⟩ := Timeboard.attempt_sips a heap hp
  exact ⟨k, h2 org f ho hf, h1⟩

/-- **C88**: a RememberingPattern which is not in the layout is left as it was, and so are all of them when the layout is none, when
`worktime_source` is wrong and when the time range is void. -/
theorem C88_untouched {a : Args L} {heap : Heap L} :
    (∀ id, ¬ a.layout.UsesRP id → (Timeboard.attempt a heap).1 id = heap id) ∧
    ((∃ x, a.layout = .label x) ∨ (∃ i, a.layout = .pattern (.rp i)) ∨ (a.worktimeSource ≠ "duration" ∧ a.worktimeSource ≠ "labels") ∨
      a.freq.base.ordOf a.stop < a.freq.base.ordOf a.start → (Timeboard.attempt a heap).1 = heap) := by
  constructor
  · intro id hid
    refine Timeboard.attempt_keeps (Q := fun j c => j = id → c = heap id) ?_ (fun j hj => by rw [hj]) id rfl
    intro i hu c x c' _ _ hj
    subst hj
    exact absurd hu hid
  · intro h
    unfold Timeboard.attempt
    cases ho : makeOrganizer a.layout with
    | error e => rfl
    | ok org =>
      simp only
      split
      · rfl
      · rename_i hw
        have hw' : a.worktimeSource = "duration" ∨ a.worktimeSource = "labels" := by
          simp at hw
          by_cases h0 : a.worktimeSource = "duration"
          · exact .inl h0
          · exact .inr (hw h0)
        rcases h with ⟨x, h⟩ | ⟨i, h⟩ | h | h
        · rw [h] at ho; cases ho
        · rw [h] at ho; cases ho
        · rcases hw' with h' | h'
          · exact absurd h' h.1
          · exact absurd h' h.2
        · cases hf : Frame.new a.freq a.start a.stop with
          | error e => rfl
          | ok f =>
            have := (Frame.new_ok_iff.1 hf).1
            omega

theorem Timeboard.attempts_madeOf (as : List (Args L)) : ∀ (heap : Heap L) (id : Nat) (xs : List L), (heap id).MadeOf xs →
    ((Timeboard.attempts as heap) id).MadeOf xs := by
  induction as with
  | nil => intro heap id xs h; exact h
  | cons a as ih =>
    intro heap id xs h
    refine ih _ id xs ?_
    exact Timeboard.attempt_keeps (Q := fun j c => j = id → c.MadeOf xs) (fun i _ => Kept.madeOf i id xs) (fun j hj => by subst hj; exact h) id rfl

theorem Timeboard.sameShape_of {tb tb' : Timeboard L} (hv : tb.Valid) (hv' : tb'.Valid)
    (h1 : tb.timeline.frame = tb'.timeline.frame) (h2 : tb.timeline.wsIdx = tb'.timeline.wsIdx)
    (h3 : tb.timeline.refEnd = tb'.timeline.refEnd) : tb.SameShape tb' := by
  have hl : tb.timeline.len = tb'.timeline.len := by unfold Timeline.len; rw [h2]
  have e1 : ∀ n, tb.timeline.wsStart n = tb'.timeline.wsStart n := by
    intro n; unfold Timeline.wsStart Timeline.firstBaseunit; rw [h1, h2]
  have e2 : ∀ n, tb.timeline.wsEnd n = tb'.timeline.wsEnd n := by
    intro n; unfold Timeline.wsEnd Timeline.lastBaseunit; rw [h1, h2]
  refine ⟨by unfold Timeboard.startTime; rw [h1], by unfold Timeboard.endTime; rw [h1], hl, ?_⟩
  intro k k0 k1
  obtain ⟨l, _, hw⟩ := Workshift.new_ok_of_range hv none k0 k1
  obtain ⟨l', _, hw'⟩ := Workshift.new_ok_of_range hv' none k0 (by rw [← hl]; exact k1)
  refine ⟨_, _, hw, hw', ?_⟩
  unfold Workshift.startTime Workshift.endTime Workshift.toTimestamp Timeline.wsRef
  rw [e1, e2, h3]
  exact ⟨rfl, rfl, rfl⟩

theorem Timeboard.attempt_even (a : Args L) {heap heap' : Heap L} (h : heap.SameMaking heap') :
    (∀ e, (Timeboard.attempt a heap).2 = .error e ↔ (Timeboard.attempt a heap').2 = .error e) ∧
    (∀ tb tb', (Timeboard.attempt a heap).2 = .ok tb → (Timeboard.attempt a heap').2 = .ok tb' →
      tb.timeline.frame = tb'.timeline.frame ∧ tb.timeline.wsIdx = tb'.timeline.wsIdx ∧ tb.timeline.refEnd = tb'.timeline.refEnd) := by
  unfold Timeboard.attempt
  cases makeOrganizer a.layout with
  | error e => simp
  | ok org =>
    simp only
    split
    · simp
    · cases Frame.new a.freq a.start a.stop with
      | error e => simp
      | ok f =>
        simp only
        obtain ⟨e1, e2, _⟩ := Layout.attempt_even f org { first := 0, last := (f.n : Int) - 1 }
          { labels := fun _ => a.defaultLabel, mask := fun _ => true, heap := heap }
          { labels := fun _ => a.defaultLabel, mask := fun _ => true, heap := heap' } ⟨rfl, h⟩
        generalize Layout.attempt f org _ { labels := fun _ => a.defaultLabel, mask := fun _ => true, heap := heap } = z at *
        generalize Layout.attempt f org _ { labels := fun _ => a.defaultLabel, mask := fun _ => true, heap := heap' } = z' at *
        rcases z with ⟨st, _ | e⟩ <;> rcases z' with ⟨st', _ | e'⟩
        · simp only at e2 ⊢
          unfold Timeline.amend
          rw [← e2, Timeline.amendLocate_congr (tl := { frame := f, wsIdx := nonzeroMask st.mask f.n, labels := (nonzeroMask st.mask f.n).map st.labels
                                                        frameband := maskedCounter st.mask f.n 0 0, refEnd := a.refEnd })
            (tl' := { frame := f, wsIdx := nonzeroMask st.mask f.n, labels := (nonzeroMask st.mask f.n).map st'.labels
                      frameband := maskedCounter st.mask f.n 0 0, refEnd := a.refEnd })]
          · generalize Timeline.amendLocate _ _ _ _ = w
            cases w with
            | error e => simp
            | ok located =>
              simp only
              refine ⟨by simp, ?_⟩
              intro tb tb' h1 h2
              cases h1; cases h2
              exact ⟨rfl, rfl, rfl⟩
          · intro t; rfl
        · cases e1
        · cases e1
        · cases e1; simp

/-- **C88**: whether a timeboard can be constructed, with which exception it fails, and which base units make its workshifts, do
not depend on what has been drawn from RememberingPatterns; so a construction which has failed fails again in the same way. -/
theorem C88_same_outcome (as : List (Args L)) (a : Args L) {heap : Heap L} (hm : ∀ id, ∃ xs, (heap id).MadeOf xs) :
    (∀ e, Timeboard.new a (Timeboard.attempts as heap) = .error e ↔ Timeboard.new a heap = .error e) ∧
    (∀ tb tb' h1 h2, Timeboard.new a heap = .ok (tb, h1) → Timeboard.new a (Timeboard.attempts as heap) = .ok (tb', h2) → tb.SameShape tb') := by
  have hs : heap.SameMaking (Timeboard.attempts as heap) := by
    intro id
    obtain ⟨xs, h⟩ := hm id
    exact ⟨xs, h, Timeboard.attempts_madeOf as heap id xs h⟩
  obtain ⟨g1, g2⟩ := Timeboard.attempt_even a hs
  constructor
  · intro e
    rw [← (C88_outcome a _).1 e, ← (C88_outcome a _).1 e]
    exact (g1 e).symm
  · intro tb tb' h1 h2 k1 k2
    have hx : tb.timeline.frame = tb'.timeline.frame ∧ tb.timeline.wsIdx = tb'.timeline.wsIdx ∧ tb.timeline.refEnd = tb'.timeline.refEnd := ?_
    · exact Timeboard.sameShape_of (Timeboard.Reachable.new k1).valid (Timeboard.Reachable.new k2).valid hx.1 hx.2.1 hx.2.2
    refine g2 tb tb' ?_ ?_
    · rw [Timeboard.attempt_new] at k1
      generalize Timeboard.attempt a heap = z at *
      rcases z with ⟨h, e | t⟩ <;> simp at k1 ⊢
      exact k1.1
    · rw [Timeboard.attempt_new] at k2
      generalize Timeboard.attempt a (Timeboard.attempts as heap) = z at *
      rcases z with ⟨h, e | t⟩ <;> simp at k2 ⊢
      exact k2.1

/-- **C88**: the workshifts of a timeboard made after any attempts carry the labels of the pattern in turn, from the label which
follows the last one drawn. -/
theorem C88_next_timeboard {as : List (Args L)} {a : Args L} {heap h' : Heap L} {tb : Timeboard L} {id : Nat} {xs : List L} {p : Nat} {ts : List Time}
    (ha : a.amendments = []) (hlay : a.layout = .organizer (.marks ts) [.pattern (.rp id)])
    (h : Timeboard.new a (Timeboard.attempts as heap) = .ok (tb, h')) (hp : (heap id).HandedOut xs p) :
    ∃ k, ((Timeboard.attempts as heap) id).HandedOut xs (p + k) ∧ ∀ (i : Nat), i < tb.timeline.frame.n →
      ∃ d l, tb.Starts (tb.timeline.frame.unitStart i) d l ∧ cyclic xs (p + k + i) = some l := by
  obtain ⟨k, hk⟩ := C88_uninterrupted as heap hp
  exact ⟨k, hk, (C09_all_spans ha hlay h hk).2⟩

theorem Timeline.amendLoop_eq (r : Bool) : ∀ (items : List (Time × L)) (acc : List (Int × L)) (tl : Timeline L),
    Timeline.amendLoop r items acc tl = (tl, tl.amendLocate r items acc) := by
  intro items
  induction items with
  | nil => intro acc tl; rfl
  | cons p rest ih =>
    intro acc tl
    rcases p with ⟨t, v⟩
    unfold Timeline.amendLoop Timeline.amendLocate
    cases tl.wsPosition t with
    | error e => cases e <;> simp only [ih] <;> split <;> rfl
    | ok k => simp only [ih]; split <;> rfl

/-- **C13**: `amend` changes the timeline in place; when it raises an exception, the timeline is as it was, and when it does not, the
timeline is the amended one of the other theorems. -/
theorem C13_in_place (tl : Timeline L) (items : List (Time × L)) (raising : Bool) :
    (∀ e, (tl.amendInPlace items raising).2 = some e ↔ tl.amend items raising = .error e) ∧
    (∀ e, (tl.amendInPlace items raising).2 = some e → (tl.amendInPlace items raising).1 = tl) ∧
    ((tl.amendInPlace items raising).2 = none → tl.amend items raising = .ok (tl.amendInPlace items raising).1) := by
  unfold Timeline.amendInPlace Timeline.amend
  rw [Timeline.amendLoop_eq]
  cases tl.amendLocate raising items [] <;> simp

example : (week.timeline.amendInPlace [(date 2017 1 2, 5), (date 2017 1 2 + 7, 6)]).2 = some .keyError ∧
    (week.timeline.amendInPlace [(date 2017 1 2, 5), (date 2019 1 2 + 7, 6)] true).2 = some .outOfBounds ∧
    (week.timeline.amendInPlace [(date 2017 1 2, 5), (date 2019 1 2 + 7, 6)]).2 = none ∧
    (week.timeline.amendInPlace [(date 2017 1 2, 5)]).1.labels ≠ week.timeline.labels := by decide +kernel

/-! ### A construction which fails midway, after two labels have been drawn, and the next one -/

/-- Two days of the pattern, then a marker the frequency of which is not acceptable. -/
def failing : Args Int := rpArgs (.organizer (.marks [date 2017 1 3]) [.pattern (.rp 0), .organizer (.marker ⟨fH, []⟩) [.label 7]])
  (date 2017 1 1) (date 2017 1 4)

def afterFailing : Args Int := rpArgs (.organizer (.marks []) [.pattern (.rp 0)]) (date 2017 1 1) (date 2017 1 4)

example : (Timeboard.attempt failing rpHeap).2.map (fun tb => tb.timeline.labels) = .error .unacceptablePeriod ∧
    (Timeboard.new afterFailing (Timeboard.attempt failing rpHeap).1).map (fun r => r.1.timeline.labels) = .ok [3, 1, 2, 3] ∧
    (Timeboard.new afterFailing (Timeboard.attempts [failing, failing] rpHeap)).map (fun r => r.1.timeline.labels) = .ok [2, 3, 1, 2] := by
  decide +kernel

example : ∀ id, ∃ xs, (rpHeap id).MadeOf xs := fun _ => ⟨[1, 2, 3], .inr ⟨0, Cycle.handedOut_start (by simp)⟩⟩

example : ¬ afterFailing.layout.UsesRP 1 ∧ failing.layout.UsesRP 0 := by
  constructor
  · rintro (h | ⟨c, h⟩)
    · cases h with
      | elem hl hw => simp at hl; subst hl; cases hw
    · cases h with
      | elem hl hw => simp at hl; subst hl; cases hw
  · exact .inl (.elem (List.mem_cons_self) .here)

end TB
