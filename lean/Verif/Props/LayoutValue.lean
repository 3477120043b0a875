import Verif.Spec.LayoutValue
import Verif.Props.Layout
import Verif.Props.Labels
import Verif.Props.Duty
import Verif.Lemmas.SameTimes2
import Verif.Lemmas.Anchor
import Verif.Lemmas.Nested
import Verif.Examples.Boards
/-! What may be given as the layout (C122). -/
namespace TB
variable {L : Type}

/-- `layout` should be an Organizer or any iterable of labels, which is then a pattern.  It is so, except for a set with one element and a dictionary
with one key which is not 0 (`C122_negation`).  Missing for the full claim: these two. -/
theorem C122_accepted_partial (obj : Layout L → L) (a : Args L) (heap : Heap L) :
    (∀ c e, Timeboard.newL obj a (.organizer c e) heap = (false, Timeboard.new { a with layout := .organizer c e } heap)) ∧
    (∀ c i, Timeboard.newL obj a (.organizerRP c i) heap = (false, Timeboard.new { a with layout := .organizerRP c i } heap)) ∧
    (∀ x ls, x.Yields obj ls → (∀ e, ¬ x.Lonely e) → (Timeboard.newL obj a x heap).2 = Timeboard.new { a with layout := .pattern (.list ls) } heap) := by
  refine ⟨fun _ _ => rfl, fun _ _ => rfl, ?_⟩
  intro x ls hy hl
  cases hy with
  | sequence => rename_i xs; match xs with | [] => rfl | [_] => rfl | _ :: _ :: _ => rfl
  | unordered =>
    rename_i xs
    match xs with
    | [] => rfl
    | [_] => exact absurd .unordered (hl _)
    | _ :: _ :: _ => rfl
  | mapping =>
    rename_i es
    match es with
    | [] => rfl
    | [(_, true, _)] => rfl
    | [(_, false, _)] => exact absurd .mapping (hl _)
    | _ :: _ :: _ => rfl

/-- Everything else is refused, before anything else is looked at and without a warning: an iterator, a string and other values which are not iterable by TypeError; a set
with one element by TypeError and a dictionary with one key by KeyError unless the key is 0. -/
theorem C122_refused (obj : Layout L → L) (a : Args L) (heap : Heap L) :
    Timeboard.newL obj a .iterator heap = (false, .error .typeError) ∧ Timeboard.newL obj a .notIterable heap = (false, .error .typeError) ∧
    (∀ x e, x.Lonely e → Timeboard.newL obj a x heap = (false, .error e)) := by
  refine ⟨rfl, rfl, ?_⟩
  intro x e h
  cases h <;> rfl

/-- There is a warning exactly if the layout is an Organizer wrapped in a list, or in a dictionary as the value of the only key 0; it does not
depend on whether the timeboard can be made. -/
theorem C122_warning (obj : Layout L → L) (a : Args L) (x : LayoutValue L) (heap : Heap L) :
    (Timeboard.newL obj a x heap).1 = true ↔ (∃ o, x = .sequence [.organizer o]) ∨ (∃ k o, x = .mapping [(k, true, .organizer o)]) := by
  constructor
  · intro h
    unfold Timeboard.newL at h
    match x with
    | .organizer _ _ => cases h
    | .organizerRP _ _ => cases h
    | .iterator => cases h
    | .notIterable => cases h
    | .sequence [] => cases h
    | .sequence [.plain _] => cases h
    | .sequence [.organizer o] => exact .inl ⟨o, rfl⟩
    | .sequence (_ :: _ :: _) => cases h
    | .unordered [] => cases h
    | .unordered [_] => cases h
    | .unordered (_ :: _ :: _) => cases h
    | .mapping [] => cases h
    | .mapping [(_, false, _)] => cases h
    | .mapping [(_, true, .plain _)] => cases h
    | .mapping [(k, true, .organizer o)] => exact .inr ⟨k, o, rfl⟩
    | .mapping (_ :: _ :: _) => cases h
  · rintro (⟨o, rfl⟩ | ⟨k, o, rfl⟩) <;> rfl

/-- Organizers in a list are not applied: each base unit is a workshift, and the labels are the elements of the list in turn, organizers as well as others.  No RememberingPattern
is touched. -/
theorem C122_organizers_as_labels (obj : Layout L → L) {a : Args L} (ha : a.amendments = []) (heap : Heap L) {f : Frame}
    (hw : a.worktimeSource ∈ ["duration", "labels"]) (hf : Frame.new a.freq a.start a.stop = .ok f) {xs : List (LayoutItem L)} (hx : xs ≠ []) :
    ∃ tb, (Timeboard.newL obj a (.sequence xs) heap).2 = .ok (tb, heap) ∧ tb.timeline.frame = f ∧
      ∀ i : Nat, i < f.n → ∃ x, cyclic xs i = some x ∧ tb.Starts (f.unitStart i) 1 (x.label obj) := by
  obtain ⟨tb, h1, h2, h3⟩ := C06_pattern (a := { a with layout := .pattern (.list (xs.map (LayoutItem.label obj))) }) (heap := heap) ha rfl (by simpa using hx) hw hf
  refine ⟨tb, ?_, h2, ?_⟩
  · rw [(C122_accepted_partial obj a heap).2.2 _ _ .sequence (by intro e h; cases h)]; exact h1
  · intro i hi
    obtain ⟨l, h4, h5⟩ := h3 i hi
    unfold cyclic at h5 ⊢
    simp only [List.length_map, List.getElem?_map, Option.map_eq_some_iff] at h5
    obtain ⟨x, h6, h7⟩ := h5
    exact ⟨x, h6, h7 ▸ h4⟩

/-- In particular a timeboard made of an Organizer wrapped in a list has a workshift for each base unit, the label of all of which is the Organizer; as an Organizer is
true, all of them are on duty unless there is a selector which knows better. -/
theorem C122_wrapped (obj : Layout L → L) {a : Args L} (ha : a.amendments = []) (heap : Heap L) (o : Layout L) {tb : Timeboard L} {heap' : Heap L}
    (h : (Timeboard.newL obj a (.sequence [.organizer o]) heap).2 = .ok (tb, heap')) :
    heap' = heap ∧ tb.timeline.len = tb.timeline.frame.n ∧
    ∀ k, 0 ≤ k → k < tb.timeline.len → ∃ w, Workshift.new tb k = .ok w ∧ w.label = obj o ∧ w.duration tb = .ok 1 ∧ w.isOnDuty tb = .ok (a.selector (obj o)) := by
  have hr : tb.Reachable := by
    rw [(C122_accepted_partial obj a heap).2.2 _ _ .sequence (by intro e h; cases h)] at h
    exact .new h
  have hv := hr.valid
  have hsel : tb.defaultSchedule.selector = a.selector := by
    rw [(C122_accepted_partial obj a heap).2.2 _ _ .sequence (by intro e h; cases h), Timeboard.new_ok_iff] at h
    obtain ⟨_, _, _, _, _, _, _, _, _, rfl⟩ := h
    rfl
  obtain ⟨f, hw, hf⟩ : ∃ f, a.worktimeSource ∈ ["duration", "labels"] ∧ Frame.new a.freq a.start a.stop = .ok f := by
    rw [(C122_accepted_partial obj a heap).2.2 _ _ .sequence (by intro e h; cases h), Timeboard.new_ok_iff] at h
    obtain ⟨_, f, _, _, _, h1, h2, _⟩ := h
    exact ⟨f, h1, h2⟩
  obtain ⟨tb', h1, h2, h3⟩ := C122_organizers_as_labels obj ha heap hw hf (xs := [.organizer o]) (by simp)
  rw [h1] at h
  injection h with h; injection h with h4 h5
  subst h4
  subst h2
  have hst : ∀ i : Nat, i < tb'.timeline.frame.n → ∃ k, 0 ≤ k ∧ k < tb'.timeline.len ∧ tb'.timeline.bnd k = i ∧ tb'.timeline.label k = .ok (obj o) := by
    intro i hi
    obtain ⟨x, g1, g2⟩ := h3 i hi
    obtain ⟨k, k0, k1, k2, k3⟩ := hv.of_starts g2
    have hx : x = .organizer o := by
      unfold cyclic at g1
      simpa [Nat.mod_one] using g1.symm
    subst hx
    exact ⟨k, k0, k1, (Frame.unitStart_inj k2).symm, k3⟩
  have hidx : tb'.timeline.wsIdx = (List.range tb'.timeline.frame.n).map (fun (i : Nat) => (i : Int)) := by
    refine pairwise_lt_ext hv.wf.sorted ?_ ?_
    · rw [List.pairwise_map]
      exact List.pairwise_lt_range.imp (fun h => by omega)
    · intro x
      constructor
      · intro hx
        have := hv.wf.range x hx
        exact List.mem_map.2 ⟨x.toNat, by simp only [List.mem_range]; omega, by omega⟩
      · intro hx
        obtain ⟨i, g1, rfl⟩ := List.mem_map.1 hx
        obtain ⟨k, k0, k1, k2, _⟩ := hst i (List.mem_range.1 g1)
        obtain ⟨u, u'⟩ := Timeline.bnd_lt k0 k1
        rw [← k2, u']
        exact List.getElem_mem u
  have hlen : tb'.timeline.len = tb'.timeline.frame.n := by
    unfold Timeline.len
    rw [hidx]; simp
  have hb : ∀ k : Int, 0 ≤ k → k ≤ tb'.timeline.frame.n → tb'.timeline.bnd k = k := by
    intro k h0 h1
    unfold Timeline.bnd
    rw [hidx, List.getElem?_map]
    by_cases hk : k.toNat < tb'.timeline.frame.n
    · rw [List.getElem?_range hk]; simp; omega
    · rw [List.getElem?_eq_none (by simpa using hk)]; simp; omega
  refine ⟨h5.symm, hlen, ?_⟩
  intro k r0 r1
  obtain ⟨w, e1, e2, e3, e4, e5, e6, e7, e8⟩ := Workshift.exists_of_range hv none r0 r1
  obtain ⟨j, j0, j1, j2, j3⟩ := hst k.toNat (by omega)
  have hjk : j = k := by have := hb j j0 (by omega); omega
  subst hjk
  rw [e4] at j3; injection j3 with j3
  refine ⟨w, e1, j3, ?_, ?_⟩
  · rw [e8, hb _ (by omega) (by omega), hb _ (by omega) (by omega)]; congr 1; omega
  · have g : Workshift.new tb' j (some tb'.defaultSchedule) = .ok w := e1
    have g1 := ((C15_on_off_partition hr hv.default_owned).1 j w r0 r1 g).1
    rw [g1, hsel, j3]

/-- An Organizer as a label of the examples, where labels are numbers. -/
def exObj : Layout Int → Int := fun _ => 100

/-- Working weeks. -/
def exWeeks : Layout Int := .organizer (.marker { each := Ex.fW, ats := [] }) [.pattern (.list [1, 1, 1, 1, 1, 0, 0])]

/-- Two weeks in January 2017. -/
def exLayoutArgs : Args Int where
  freq := Ex.fD
  start := date 2017 1 2
  stop := date 2017 1 15
  layout := .label 0
  selector := fun x => x != 0
  defaultLabel := 0

/-- The labels of the timeboard. -/
def labelsOf : Bool × Except Err (Timeboard Int × Heap Int) → Option (Bool × List Int)
  | (b, .ok r) => some (b, r.1.timeline.labels)
  | _ => none

-- The organizer, and the organizer in a list, with another one, and with a number.
example : labelsOf (Timeboard.newL exObj exLayoutArgs (.organizer (.marker { each := Ex.fW, ats := [] }) [.pattern (.list [1, 1, 1, 1, 1, 0, 0])]) Ex.heap0) =
    some (false, [1, 1, 1, 1, 1, 0, 0, 1, 1, 1, 1, 1, 0, 0]) := by decide +kernel
example : labelsOf (Timeboard.newL exObj exLayoutArgs (.sequence [.organizer exWeeks]) Ex.heap0) = some (true, List.replicate 14 100) := by decide +kernel
example : labelsOf (Timeboard.newL exObj exLayoutArgs (.sequence [.organizer exWeeks, .plain 0]) Ex.heap0) =
    some (false, [100, 0, 100, 0, 100, 0, 100, 0, 100, 0, 100, 0, 100, 0]) := by decide +kernel
-- A set of two elements; a dictionary with the key 0 and an Organizer as its value: the label is the key.
example : labelsOf (Timeboard.newL exObj exLayoutArgs (.unordered [.plain 0, .plain 1]) Ex.heap0) =
    some (false, [0, 1, 0, 1, 0, 1, 0, 1, 0, 1, 0, 1, 0, 1]) := by decide +kernel
example : labelsOf (Timeboard.newL exObj exLayoutArgs (.mapping [(.plain 0, true, .organizer exWeeks)]) Ex.heap0) = some (true, List.replicate 14 0) := by decide +kernel
-- The hypotheses of `C122_wrapped` and `C122_organizers_as_labels` are met.
example : exLayoutArgs.amendments = [] ∧ exLayoutArgs.worktimeSource ∈ ["duration", "labels"] ∧
    (Frame.new exLayoutArgs.freq exLayoutArgs.start exLayoutArgs.stop).isOk = true := by decide +kernel

/-- The full claim of `C122_accepted_partial` is false: the set `{1}` and the dictionary `{1: 'x'}` are iterables of one label 1, but are refused, though the list `[1]` is
accepted and so are the set `{0, 1}` and the dictionary `{0: 'x', 1: 'x'}`. -/
theorem C122_negation :
    (∃ (x y : LayoutValue Int), x.Yields exObj [1] ∧ y.Yields exObj [1] ∧
      (Timeboard.newL exObj exLayoutArgs x Ex.heap0).2.isOk = false ∧ (Timeboard.newL exObj exLayoutArgs y Ex.heap0).2.isOk = true) ∧
    (Timeboard.newL exObj exLayoutArgs (.unordered [.plain 1]) Ex.heap0).2.isOk = false ∧
    (Timeboard.newL exObj exLayoutArgs (.unordered [.plain 0, .plain 1]) Ex.heap0).2.isOk = true ∧
    (Timeboard.newL exObj exLayoutArgs (.mapping [(.plain 1, false, .plain 5)]) Ex.heap0).2.isOk = false ∧
    (Timeboard.newL exObj exLayoutArgs (.mapping [(.plain 0, true, .plain 5), (.plain 1, false, .plain 5)]) Ex.heap0).2.isOk = true := by
  refine ⟨⟨.unordered [.plain 1], .sequence [.plain 1], .unordered, .sequence, ?_, ?_⟩, ?_, ?_, ?_, ?_⟩ <;> decide +kernel

end TB
