import Verif.Lemmas.OneShot3
import Verif.Props.Iterators
/-! Property C118: iterators as marks, as `at` of a marker, and as structures. -/
namespace TB
open TB.Ex
variable {L : Type}

/-- **C118.** Marks, the specifications of `at` and structures may be any iterables, and so iterators.  A timeboard made with iterators is the one
made with the layout in which each organizer has, for each span it is applied to, what is left of its iterators at that moment
(`OnceLayout.unrolled`); and this says also what is left of the iterators afterwards. -/
theorem C118_amounts (a : Args L) (l : OnceLayout L) (heap : Heap L) (u : Drawn) :
    Timeboard.newOnce a l heap u = (Timeboard.newIt { a with layout := (a.unrolled l u).1 } heap).map (fun r => (r.1, r.2, (a.unrolled l u).2)) :=
  Timeboard.newOnce_unrolled a l heap u

/-- **C118**, all other properties: the timeboard could have been made without iterators. -/
theorem C118_reachable {a : Args L} {l : OnceLayout L} {heap heap' : Heap L} {u u' : Drawn} {m : Supplies L} (hm : heap.Supplies m) {tb : Timeboard L}
    (h : Timeboard.newOnce a l heap u = .ok (tb, heap', u')) :
    ∃ (cut : Cut) (ls : List L), (∀ heap0 m0, Heap.Shows heap0 m0 →
      Timeboard.new { a with layout := .organizer cut (ls.map Layout.label) } heap0 = .ok (tb, heap0)) ∧ tb.Reachable := by
  rw [C118_amounts] at h
  cases hn : Timeboard.newIt { a with layout := (a.unrolled l u).1 } heap with
  | error e => rw [hn] at h; cases h
  | ok r =>
    rw [hn] at h
    obtain ⟨tb', h'⟩ := r
    simp only [Except.map, Except.ok.injEq, Prod.mk.injEq] at h
    obtain ⟨rfl, rfl, _⟩ := h
    exact C111_reachable (a := { a with layout := (a.unrolled l u).1 }) hm hn

/-- **C118**, what can be kept of "the same as with the lists of their elements": iterators which are fresh and which are each used once.  The full
claim would be this without the hypotheses; it fails (`C118_negation`). -/
theorem C118_lists_partial {a : Args L} {l : OnceLayout L} (heap : Heap L) {u : Drawn} (hl : l.Filled)
    (h : ∀ f, a.frame = .ok f → (l.uses f f.whole).Nodup ∧ ∀ id ∈ l.uses f f.whole, u id = 0) :
    (Timeboard.newOnce a l heap u).map (fun r => (r.1, r.2.1)) = Timeboard.newIt { a with layout := l.asLists } heap :=
  Timeboard.newOnce_lists hl h

/-- **C118**, the organizer which is the layout.  Its fresh iterators are as good as lists, whatever its elements are (if these have no such
iterators). -/
theorem C118_outermost (a : Args L) (heap : Heap L) {cut : Cut} {ci ei : Option Nat} (es : List (Layout L)) {u : Drawn} (hc : cut.Filled ci)
    (hne : ∀ i j, ci = some i → ei = some j → i ≠ j) (h1 : ∀ i, ci = some i → u i = 0) (h2 : ∀ j, ei = some j → u j = 0) :
    (Timeboard.newOnce a (.organizer cut ci (Layout.noIteratorsAll es) ei) heap u).map (fun r => (r.1, r.2.1)) =
      Timeboard.newIt { a with layout := .organizer cut es } heap := by
  rw [(Timeboard.newOnce_outermost a heap cut ci ei es u hne).1]
  rw [Cut.remaining_fresh (fun id hid => h1 id (by simpa using hid)) hc]
  have : u.count ei = 0 := by
    cases ei with
    | none => rfl
    | some j => exact h2 j rfl
  rw [this, List.drop_zero]

/-- **C118**, the second timeboard: the marks are gone.  It is made as if there were no marks. -/
theorem C118_marks_again {a : Args L} {heap h : Heap L} {ts : List Time} {i : Nat} {es : List (Layout L)} {u u' : Drawn} {tb : Timeboard L}
    (h1 : Timeboard.newOnce a (.organizer (.marks ts) (some i) (Layout.noIteratorsAll es) none) heap u = .ok (tb, h, u')) (a' : Args L) (heap' : Heap L) :
    (Timeboard.newOnce a' (.organizer (.marks ts) (some i) (Layout.noIteratorsAll es) none) heap' u').map (fun r => (r.1, r.2.1)) =
      Timeboard.newIt { a' with layout := .organizer (.marks []) es } heap' := by
  obtain ⟨f, ss, _, _, hu⟩ := (Timeboard.newOnce_outermost a heap (.marks ts) (some i) none es u (by simp)).2 tb h u' h1
  rw [(Timeboard.newOnce_outermost a' heap' (.marks ts) (some i) none es u' (by simp)).1]
  have : ts.length ≤ u' i := by
    subst hu
    simp only [Drawn.after, Cut.size, reduceCtorEq, if_false, if_true]
    omega
  simp only [Cut.remaining, List.drop_eq_nil_of_le this]
  rfl

/-- **C118**, the second timeboard: the specifications of `at` are gone.  The marker finds no points, so that the frame is not divided; a pattern
cannot be applied, as it is not known how much of it to skip. -/
theorem C118_at_again {a : Args L} {heap h : Heap L} {m : Marker} {i : Nat} {es : List (Layout L)} {u u' : Drawn} {tb : Timeboard L}
    (h1 : Timeboard.newOnce a (.organizer (.marker m) (some i) (Layout.noIteratorsAll es) none) heap u = .ok (tb, h, u')) (a' : Args L) (heap' : Heap L) :
    (Timeboard.newOnce a' (.organizer (.marker m) (some i) (Layout.noIteratorsAll es) none) heap' u').map (fun r => (r.1, r.2.1)) =
      Timeboard.newIt { a' with layout := .organizer (.marker ⟨m.each, [fun _ _ => .ok []]⟩) es } heap' ∧
    (∀ f, a'.frame = .ok f → checkGroupbyFreq f.freq m.each = true →
      f.cut f.whole (.marker ⟨m.each, [fun _ _ => .ok []]⟩) = .ok [{ first := 0, last := (f.n : Int) - 1, skipLeft := -1, skipRight := -1 }]) ∧
    (∀ f, a'.frame = .ok f → checkGroupbyFreq f.freq m.each = true → a'.worktimeSource ∈ ["duration", "labels"] → ∀ p es', es = .pattern p :: es' →
      Timeboard.newOnce a' (.organizer (.marker m) (some i) (Layout.noIteratorsAll es) none) heap' u' = .error .outOfBounds) := by
  obtain ⟨f, ss, _, _, hu⟩ := (Timeboard.newOnce_outermost a heap (.marker m) (some i) none es u (by simp)).2 tb h u' h1
  have hsec := (Timeboard.newOnce_outermost a' heap' (.marker m) (some i) none es u' (by simp)).1
  have hle : m.ats.length ≤ u' i := by
    subst hu
    simp only [Drawn.after, Cut.size, reduceCtorEq, if_false, if_true]
    omega
  have hrem : (Cut.marker m).remaining (some i) u' = .marker ⟨m.each, [fun _ _ => .ok []]⟩ := by
    simp only [Cut.remaining, if_pos hle]
  rw [hrem] at hsec
  have hcut : ∀ f, a'.frame = .ok f → checkGroupbyFreq f.freq m.each = true →
      f.cut f.whole (.marker ⟨m.each, [fun _ _ => .ok []]⟩) = .ok [{ first := 0, last := (f.n : Int) - 1, skipLeft := -1, skipRight := -1 }] := by
    intro f _ hg
    simp only [Frame.cut, hg, Bool.true_eq_false, if_false, List.isEmpty_cons, Bool.false_eq_true]
    rfl
  refine ⟨hsec, hcut, ?_⟩
  intro f hf hg hw p es' he
  subst he
  have hf' := hf
  rw [Args.frame_eq] at hf'
  have hin := Frame.whole_inside hf'
  have hc := hcut f hf hg
  rw [← Frame.cutSpan_eq _ hin.1 hin.2.1 hin.2.2] at hc
  have : Timeboard.newIt { a' with layout := .organizer (.marker ⟨m.each, [fun _ _ => .ok []]⟩) (.pattern p :: es') } heap' = .error .outOfBounds := by
    simp only [Timeboard.newIt, makeOrganizer]
    rw [if_neg (fun hh => hh hw), hf']
    simp only [Timeline.newIt, Layout.runIt]
    unfold Frame.whole at hc
    rw [hc]
    rfl
  rw [show u'.count none = 0 from rfl, List.drop_zero, this] at hsec
  cases hn : Timeboard.newOnce a' (.organizer (.marker m) (some i) (Layout.noIteratorsAll (.pattern p :: es')) none) heap' u' with
  | error e =>
    rw [hn] at hsec
    simp only [Except.map, Except.error.injEq] at hsec
    rw [hsec]
  | ok r => rw [hn] at hsec; cases hsec

/-- **C118**, the second timeboard: as many elements of the structure are gone as the first timeboard had spans.  The second begins with the
next. -/
theorem C118_structure_again {a : Args L} {heap h : Heap L} {cut : Cut} {j : Nat} {es : List (Layout L)} {u u' : Drawn} {tb : Timeboard L}
    {f : Frame} {ss : List Span} (hf : a.frame = .ok f) (hss : f.cut f.whole cut = .ok ss) (h0 : u j = 0)
    (h1 : Timeboard.newOnce a (.organizer cut none (Layout.noIteratorsAll es) (some j)) heap u = .ok (tb, h, u')) (a' : Args L) (heap' : Heap L) :
    (Timeboard.newOnce a' (.organizer cut none (Layout.noIteratorsAll es) (some j)) heap' u').map (fun r => (r.1, r.2.1)) =
      Timeboard.newIt { a' with layout := .organizer cut (es.drop ss.length) } heap' := by
  obtain ⟨f', ss', e1, e2, hu⟩ := (Timeboard.newOnce_outermost a heap cut none (some j) es u (by simp)).2 tb h u' h1
  have hrem : ∀ g, cut.remaining none g = cut := fun g => by cases cut <;> rfl
  rw [hrem] at e2
  rw [hf] at e1
  cases e1
  rw [hss] at e2
  cases e2
  rw [(Timeboard.newOnce_outermost a' heap' cut none (some j) es u' (by simp)).1, hrem]
  have : u'.count (some j) = min es.length ss.length := by
    subst hu
    simp only [Drawn.count, Drawn.after, if_true, reduceCtorEq, if_false, h0]
    omega
  rw [this]
  by_cases hle : es.length ≤ ss.length
  · rw [Nat.min_eq_left hle, List.drop_length, List.drop_eq_nil_of_le hle]
  · rw [Nat.min_eq_right (by omega)]

def onceLabels (l : OnceLayout Int) (s e : Time) (u : Drawn) : Except Err (List (Int × Int)) :=
  (Timeboard.newOnce (rpArgs (.label 0) s e) l heap0 u).map (fun r => r.1.timeline.wsIdx.zip r.1.timeline.labels)

def listLabels (l : Layout Int) (s e : Time) : Except Err (List (Int × Int)) :=
  (Timeboard.newIt (rpArgs l s e) heap0).map (fun r => r.1.timeline.wsIdx.zip r.1.timeline.labels)

def unused : Drawn := fun _ => 0

/-- Marks and structure of the layout are iterators, and so is the structure of the organizer inside, which is used for one span. -/
def onceBoard : OnceLayout Int :=
  .organizer (.marks [date 2017 1 3, date 2017 1 5]) (some 0)
    [.label 1, .organizer (.marks [date 2017 1 4]) (some 2) [.label 5, .label 6] (some 3), .pattern (.list [7, 8])] (some 1)

/-- The hypotheses of `C118_lists_partial`. -/
example : onceBoard.Filled ∧ (∀ f, Frame.new fD (date 2017 1 1) (date 2017 1 8) = .ok f → (onceBoard.uses f f.whole) = [0, 1, 2, 3]) ∧
    onceLabels onceBoard (date 2017 1 1) (date 2017 1 8) unused = .ok [(0, 1), (2, 5), (3, 6), (4, 7), (5, 8), (6, 7), (7, 8)] ∧
    listLabels onceBoard.asLists (date 2017 1 1) (date 2017 1 8) = .ok [(0, 1), (2, 5), (3, 6), (4, 7), (5, 8), (6, 7), (7, 8)] := by
  refine ⟨by simp [onceBoard, OnceLayout.Filled, OnceLayout.FilledAll, Cut.Filled], ?_, by decide +kernel, by decide +kernel⟩
  intro f hf
  have : (Frame.new fD (date 2017 1 1) (date 2017 1 8)).map (fun f => onceBoard.uses f f.whole) = .ok [0, 1, 2, 3] := by decide +kernel
  rw [hf] at this
  simpa [Except.map] using this

/-- The same layout used again: nothing is left of the marks and of the structure, and the default label 9 stays. -/
example : (match Timeboard.newOnce (rpArgs (.label 0) (date 2017 1 1) (date 2017 1 8)) onceBoard heap0 unused with
      | .error e => Except.error e
      | .ok r => onceLabels onceBoard (date 2017 1 1) (date 2017 1 3) r.2.2) = .ok [(0, 9), (1, 9), (2, 9)] := by
  decide +kernel

/-- Four labels for the structure, two spans in the first timeboard: the second begins with the third label. -/
example : (match Timeboard.newOnce (rpArgs (.label 0) (date 2017 1 1) (date 2017 1 4))
        (.organizer (.marks [date 2017 1 3]) none [.label 1, .label 2, .label 3, .label 4] (some 0)) heap0 unused with
      | .error e => Except.error e
      | .ok r => onceLabels (.organizer (.marks [date 2017 1 3]) none [.label 1, .label 2, .label 3, .label 4] (some 0)) (date 2017 1 1) (date 2017 1 4) r.2.2) =
    .ok [(0, 3), (2, 4)] := by
  decide +kernel

/-- A marker of weeks which begin on Wednesday, the specifications being an iterator: the first timeboard is made, the second is refused; with a
list it is made too. -/
example :
    let m : Marker := ⟨fW, [fromStartOfEach (some { days := 2 })]⟩
    let l : OnceLayout Int := .organizer (.marker m) (some 0) [.pattern (.list [1, 2, 3, 4, 5, 6, 7])] none
    onceLabels l (date 2017 1 3) (date 2017 1 5) unused = .ok [(0, 7), (1, 1), (2, 2)] ∧
    onceLabels l (date 2017 1 3) (date 2017 1 5) (fun _ => 1) = .error .outOfBounds ∧
    listLabels l.asLists (date 2017 1 3) (date 2017 1 5) = .ok [(0, 7), (1, 1), (2, 2)] := by
  decide +kernel

/-- **C118**, the full claim fails: "the same as with the lists".  An organizer inside another has its marks from an iterator: the first span
is divided, the second is not, as nothing is left. -/
theorem C118_negation :
    onceLabels (.organizer (.marks [date 2017 1 5]) none [.organizer (.marks [date 2017 1 3, date 2017 1 7]) (some 0) [.label 1, .label 2] none] none)
      (date 2017 1 1) (date 2017 1 8) unused = .ok [(0, 1), (2, 2), (4, 1)] ∧
    listLabels (.organizer (.marks [date 2017 1 5]) [.organizer (.marks [date 2017 1 3, date 2017 1 7]) [.label 1, .label 2]])
      (date 2017 1 1) (date 2017 1 8) = .ok [(0, 1), (2, 2), (4, 1), (6, 2)] := by
  decide +kernel

end TB
