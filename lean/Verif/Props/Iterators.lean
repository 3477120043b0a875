import Verif.Lemmas.Iterators3
import Verif.Props.Reading
/-! Property C111: iterators of labels as patterns. -/
namespace TB
open TB.Ex
variable {L : Type}

/-- **C111.** The documentation allows a pattern to be an iterator of labels.  A timeboard is made exactly when its layout can be read
(`Spec/Iterators.lean`), and consists of the workshifts read.  An iterator which comes to an end is laid out, each time it is used, as the
list of the labels which are left in it; these are then gone, and when there are none left the default label stays. -/
theorem C111_workshifts (a : Args L) (heap : Heap L) (m : Supplies L) (hm : heap.Supplies m) :
    match a.readIt m with
    | .error e => Timeboard.newIt a heap = .error e
    | .ok (f, ps, m') => ∃ tb heap', Timeboard.newIt a heap = .ok (tb, heap') ∧ heap'.Supplies m' ∧ tb.ConsistsOf f ps :=
  Timeboard.newIt_reads a heap m hm

/-- **C111**, iterators which do not end.  With RememberingPatterns and `itertools.cycle` objects the constructor is the one all other
properties are about. -/
theorem C111_remembering (a : Args L) {heap : Heap L} {m : Memory L} (hm : heap.Shows m) : Timeboard.newIt a heap = Timeboard.new a heap :=
  Timeboard.newIt_lasting a hm.lasting

/-- **C111**, all other properties.  A timeboard made with iterators could have been made without: there is a layout with no iterators at
all with which the constructor returns the same timeboard. -/
theorem C111_reachable {a : Args L} {heap heap' : Heap L} {m : Supplies L} (hm : heap.Supplies m) {tb : Timeboard L}
    (h : Timeboard.newIt a heap = .ok (tb, heap')) :
    ∃ (cut : Cut) (ls : List L), (∀ heap0 m0, Heap.Shows heap0 m0 →
      Timeboard.new { a with layout := .organizer cut (ls.map Layout.label) } heap0 = .ok (tb, heap0)) ∧ tb.Reachable := by
  have h0 := h
  unfold Timeboard.newIt at h0
  cases ho : makeOrganizer a.layout with
  | error e => rw [ho] at h0; cases h0
  | ok org =>
    rw [ho] at h0
    simp only at h0
    split at h0
    · cases h0
    · cases hf : Frame.new a.freq a.start a.stop with
      | error e => rw [hf] at h0; cases h0
      | ok f =>
        have hk := Timeboard.newIt_reads_organizer a heap m hm org ho
        rename_i hw
        have hw' : ¬ (a.worktimeSource ≠ "duration" ∧ a.worktimeSource ≠ "labels") := by
          intro hh; apply hw; simp [hh]
        unfold Args.readLayoutIt at hk
        rw [if_neg hw', Args.frame_eq, hf] at hk
        simp only at hk
        cases hr : Layout.readIt f a.defaultLabel org { first := 0, last := (f.n : Int) - 1 } m with
        | error e => rw [hr] at hk; simp only at hk; rw [hk] at h; cases h
        | ok x =>
          obtain ⟨ps, m'⟩ := x
          obtain ⟨_, h1, _, k⟩ := Timeboard.newIt_plain a heap m hm ho hf hr
          have key : ∀ heap0 m0, Heap.Shows heap0 m0 → Timeboard.new { a with layout := plainLayout f ps } heap0 = .ok (tb, heap0) := by
            intro heap0 m0 hm0
            rcases k heap0 m0 hm0 with ⟨e, e1, _⟩ | ⟨tb', e1, e2⟩
            · rw [h] at e1; cases e1
            · rw [h] at e1; cases e1; exact e2
          refine ⟨.marks (ps.map (fun p => f.unitStart p.first)), ps.map Piece.label, ?_, .new (key _ _ heap_shows_empty)⟩
          rw [List.map_map]
          exact key

/-- **C111**, an iterator with enough labels.  Where a RememberingPattern would hand out no more labels than it has, an iterator of these
labels makes the same timeboard. -/
theorem C111_enough {a : Args L} {heap : Heap L} {m m' : Supplies L} (hm : heap.Supplies m) {id : Nat} {xs : List L} (hid : m id = .endless xs 0)
    {f : Frame} {ps : List (Piece L)} (hr : a.readIt m = .ok (f, ps, m')) {k : Nat} (hk : m' id = .endless xs k) (hle : k ≤ xs.length) :
    ∃ tb heap1 heap2, Timeboard.newIt a heap = .ok (tb, heap1) ∧ Timeboard.newIt a (heap.set id (Cycle.once xs)) = .ok (tb, heap2) := by
  have hok := C111_workshifts a heap m hm
  rw [hr] at hok
  obtain ⟨tb, heap1, h1, _, _⟩ := hok
  have hexp : ∃ org, makeOrganizer a.layout = .ok org ∧ a.readLayoutIt org m = .ok (f, ps, m') := by
    unfold Args.readIt at hr
    cases hl : a.layout with
    | label l => rw [hl] at hr; cases hr
    | pattern p =>
      cases p with
      | rp j => rw [hl] at hr; cases hr
      | list ys =>
        rw [hl] at hr
        exact ⟨_, rfl, by rw [Args.readLayoutIt_whole]; exact hr⟩
    | organizer c es => rw [hl] at hr; exact ⟨_, rfl, hr⟩
    | organizerRP c j => rw [hl] at hr; exact ⟨_, rfl, hr⟩
  obtain ⟨org, ho, hr2⟩ := hexp
  have ho' : makeOrganizer a.layout = .ok org := ho
  have hsame := Timeboard.newIt_same a (l := a.layout) (l' := a.layout) hm (hm.with id xs) ho ho' (by
    intro f' hf'
    unfold Args.readLayoutIt at hr2
    rw [Args.frame_eq, hf'] at hr2
    split at hr2
    · cases hr2
    · simp only at hr2
      cases hrd : Layout.readIt f' a.defaultLabel org { first := 0, last := (f'.n : Int) - 1 } m with
      | error e => rw [hrd] at hr2; cases hr2
      | ok x =>
        obtain ⟨qs, m1⟩ := x
        rw [hrd] at hr2
        simp only at hr2
        split at hr2
        · cases hr2
        · cases hr2
          have hn : 0 < f.n := Frame.new_valid hf'
          obtain ⟨k', e1, _, e3⟩ := Layout.readIt_enough f a.defaultLabel id xs org { first := 0, last := (f.n : Int) - 1 } m m' 0 qs
            ⟨by simp, by simp only; omega, by simp only; omega⟩ hid hrd
          rw [hk] at e1
          cases e1
          have := e3 hle
          rw [List.drop_zero] at this
          rw [this]
          rfl)
  rcases hsame with ⟨e, g1, _⟩ | ⟨tb', h1', h2', g1, g2⟩
  · rw [h1] at g1; cases g1
  · rw [h1] at g1; cases g1
    exact ⟨tb, heap1, h2', h1, g2⟩

/-- **C111**, what can be kept of "the same as the list of its labels": iterators each of which is used for one span only.  The full claim would be
this for any number of spans; it fails (`C111_negation`). -/
theorem C111_list_partial (a : Args L) {heap heap0 : Heap L} {m : Supplies L} (hm : heap.Supplies m) {m0 : Memory L} (hm0 : heap0.Shows m0) (cut : Cut) (ids : List Nat)
    (xs : Nat → List L) (hnd : ids.Nodup) (hids : ∀ j ∈ ids, m j = .once (xs j))
    (hcut : ∀ f ss, Frame.new a.freq a.start a.stop = .ok f → f.cut { first := 0, last := (f.n : Int) - 1 } cut = .ok ss → ss.length ≤ ids.length) :
    (∃ e, Timeboard.newIt { a with layout := .organizer cut (ids.map (fun j => .pattern (.rp j))) } heap = .error e ∧
      Timeboard.new { a with layout := .organizer cut (ids.map (fun j => .pattern (.list (xs j)))) } heap0 = .error e) ∨
    ∃ tb h1 h2, Timeboard.newIt { a with layout := .organizer cut (ids.map (fun j => .pattern (.rp j))) } heap = .ok (tb, h1) ∧
      Timeboard.new { a with layout := .organizer cut (ids.map (fun j => .pattern (.list (xs j)))) } heap0 = .ok (tb, h2) := by
  rw [← C111_remembering _ hm0]
  refine Timeboard.newIt_same a hm hm0.supplies rfl rfl ?_
  intro f hf
  simp only [Layout.readIt]
  cases hc : f.cut { first := 0, last := (f.n : Int) - 1 } cut with
  | error e => rfl
  | ok ss =>
    have hlen := hcut f ss hf hc
    cases hids0 : ids with
    | nil => simp; rfl
    | cons i is =>
      simp only [List.map_cons, List.isEmpty_cons, Bool.false_eq_true, if_false]
      rw [← List.map_cons (f := fun j => Layout.pattern (.rp j)), ← List.map_cons (f := fun j => Layout.pattern (.list (xs j))), ← hids0]
      exact readInTurns_once hnd ss 0 m _ (by omega) (fun k _ j hj => hids j (List.mem_of_getElem? hj))

/-- **C111**, an iterator in the place of the layout. -/
theorem C111_refused (a : Args L) (heap : Heap L) (id : Nat) : Timeboard.newIt { a with layout := .pattern (.rp id) } heap = .error .typeError := rfl

/-- Objects 0, 1 and 2 are `iter([1, 2, 3, 4, 5])`, `iter([6, 7])` and an empty iterator; the others are RememberingPatterns of 1, 2, 3. -/
def itHeap : Heap Int := fun id => match id with
  | 0 => Cycle.once [1, 2, 3, 4, 5]
  | 1 => Cycle.once [6, 7]
  | 2 => Cycle.once []
  | _ => Cycle.start [1, 2, 3]

def itSupplies : Supplies Int := fun id => match id with
  | 0 => .once [1, 2, 3, 4, 5]
  | 1 => .once [6, 7]
  | 2 => .once []
  | _ => .endless [1, 2, 3] 0

example : itHeap.Supplies itSupplies := fun id => by
  match id with
  | 0 => rfl
  | 1 => rfl
  | 2 => rfl
  | n + 3 => exact C97_new_pattern [1, 2, 3]

def itLabels (l : Layout Int) (s e : Time) (h : Heap Int) : Except Err (List Int) :=
  (Timeboard.newIt (rpArgs l s e) h).map (fun r => r.1.timeline.labels)

def itPieces (l : Layout Int) (s e : Time) : Except Err (List (Int × Int × Int)) :=
  ((rpArgs l s e).readIt itSupplies).map (fun r => r.2.1.map (fun p => (p.first, p.last, p.label)))

/-- The iterator of five labels over three spans of three days: the second time the two labels left are repeated, the third time there are none
left and the default label 9 stays. -/
example : itPieces (.organizer (.marks [date 2017 1 4, date 2017 1 7]) [.pattern (.rp 0)]) (date 2017 1 1) (date 2017 1 9) =
    .ok [(0, 0, 1), (1, 1, 2), (2, 2, 3), (3, 3, 4), (4, 4, 5), (5, 5, 4), (6, 6, 9), (7, 7, 9), (8, 8, 9)] := by decide +kernel

-- By turns with a RememberingPattern; weeks, the first of which begins on Wednesday (two labels are skipped); an iterator as structure.
example : itPieces (.organizer (.marks [date 2017 1 3, date 2017 1 5, date 2017 1 6]) [.pattern (.rp 1), .pattern (.rp 3)]) (date 2017 1 1) (date 2017 1 8) =
      .ok [(0, 0, 6), (1, 1, 7), (2, 2, 1), (3, 3, 2), (4, 4, 9), (5, 5, 3), (6, 6, 1), (7, 7, 2)] ∧
    itPieces (.organizer (.marker ⟨fW, []⟩) [.pattern (.rp 0)]) (date 2017 1 4) (date 2017 1 10) =
      .ok [(0, 0, 3), (1, 1, 4), (2, 2, 5), (3, 3, 1), (4, 4, 2), (5, 5, 9), (6, 6, 9)] ∧
    itPieces (.organizerRP (.marks [date 2017 1 2, date 2017 1 4, date 2017 1 5]) 1) (date 2017 1 1) (date 2017 1 6) =
      .ok [(0, 0, 6), (1, 2, 7), (3, 3, 6), (4, 5, 7)] ∧
    itPieces (.organizerRP (.marks [date 2017 1 2]) 2) (date 2017 1 1) (date 2017 1 3) = .ok [(0, 0, 9), (1, 1, 9), (2, 2, 9)] := by
  decide +kernel

/-- **C111**, the full claim fails: an iterator over the labels of a week, laid out by weeks, does not make the timeboard which the list of
these labels makes.  In the first week both give the labels; afterwards the iterator gives the default label. -/
theorem C111_negation :
    itLabels (.organizer (.marker ⟨fW, []⟩) [.pattern (.rp 0)]) (date 2017 1 2) (date 2017 1 15) (fun _ => Cycle.once [1, 1, 1, 1, 1, 0, 0]) =
      .ok [1, 1, 1, 1, 1, 0, 0, 9, 9, 9, 9, 9, 9, 9] ∧
    itLabels (.organizer (.marker ⟨fW, []⟩) [.pattern (.list [1, 1, 1, 1, 1, 0, 0])]) (date 2017 1 2) (date 2017 1 15) heap0 =
      .ok [1, 1, 1, 1, 1, 0, 0, 1, 1, 1, 1, 1, 0, 0] := by
  decide +kernel

/-- The hypotheses of `C111_enough`: six labels are enough for five days. -/
example : (((rpArgs (.organizer (.marks [date 2017 1 3]) [.pattern (.rp 0)]) (date 2017 1 1) (date 2017 1 5)).readIt
      (fun _ => .endless [1, 2, 3, 4, 5, 6] 0)).map (fun r => match r.2.2 0 with | .endless xs k => (xs, k) | .once _ => ([], 0))) =
        .ok ([1, 2, 3, 4, 5, 6], 5) ∧
    itLabels (.organizer (.marks [date 2017 1 3]) [.pattern (.rp 0)]) (date 2017 1 1) (date 2017 1 5) (fun _ => Cycle.start [1, 2, 3, 4, 5, 6]) =
      .ok [1, 2, 3, 4, 5] ∧
    itLabels (.organizer (.marks [date 2017 1 3]) [.pattern (.rp 0)]) (date 2017 1 1) (date 2017 1 5) (fun _ => Cycle.once [1, 2, 3, 4, 5, 6]) =
      .ok [1, 2, 3, 4, 5] := by
  decide +kernel

/-- The hypotheses of `C111_list_partial`: two iterators and two spans. -/
example : itLabels (.organizer (.marks [date 2017 1 3]) ([0, 1].map (fun j => .pattern (.rp j)))) (date 2017 1 1) (date 2017 1 7) itHeap =
      .ok [1, 2, 6, 7, 6, 7, 6] ∧
    itLabels (.organizer (.marks [date 2017 1 3]) [.pattern (.list [1, 2, 3, 4, 5]), .pattern (.list [6, 7])]) (date 2017 1 1) (date 2017 1 7) itHeap =
      .ok [1, 2, 6, 7, 6, 7, 6] ∧
    (do let f ← Frame.new fD (date 2017 1 1) (date 2017 1 7)
        let ss ← f.cut { first := 0, last := (f.n : Int) - 1 } (.marks [date 2017 1 3])
        return ss.length) = .ok 2 := by
  decide +kernel

end TB
