import Verif.Lemmas.Nested
import Verif.Props.Reading
import Verif.Props.Continue
/-! Property C104: elements of an organizer are applied to spans as to whole timeboards. -/
namespace TB
open TB.Ex
variable {L : Type}

/-- **C104.** The timeboard has the workshifts of the timeboards made of its spans, each one with the element of `structure` whose turn it is
for its whole layout, one after the other; the labels handed out by RememberingPatterns are the same; and if one of these timeboards cannot be
made, neither can the whole, for the same reason.  All marks within the elements are starts of base units, and a pattern is not applied to a
first span which begins in the middle of a calendar period. -/
theorem C104_nested (a : Args L) (heap : Heap L) (m : Memory L) (hm : heap.Shows m) {cut : Cut} {elems : List (Layout L)} {f : Frame}
    {ss : List Span} (hl : a.layout = .organizer cut elems) (hne : elems ≠ []) (ha : a.amendments = [])
    (hw : a.worktimeSource = "duration" ∨ a.worktimeSource = "labels") (hf : Frame.new a.freq a.start a.stop = .ok f)
    (hc : f.cut { first := 0, last := (f.n : Int) - 1 } cut = .ok ss) (hlev : ∀ e ∈ elems, e.Level f)
    (hp : ∀ x p, ss.head? = some x → elems.head? = some (.pattern p) → x.skipLeft = 0) :
    match buildParts a f elems 0 ss heap with
    | .error e => Timeboard.new a heap = .error e
    | .ok (tbs, heap1) => ∃ tb heap2, ∃ wss : List (List (Seen L)), ∃ m', Timeboard.new a heap = .ok (tb, heap2) ∧ heap1.Shows m' ∧
        heap2.Shows m' ∧ tbs.length = ss.length ∧ wss.length = ss.length ∧ tb.Lists wss.flatten ∧
        ∀ (k : Nat) part ws, tbs[k]? = some part → wss[k]? = some ws → part.Lists ws := by
  have hn : 0 < f.n := Frame.new_valid hf
  have hff : f.freq = a.freq := by rw [Frame.new_ok_iff] at hf; rw [hf.2]
  have hwi : ({ first := 0, last := (f.n : Int) - 1 } : Span).Within f.n := ⟨Int.le_refl _, by simp only; omega, by simp only; omega⟩
  have hb := buildParts_reads a hff ha hw hlev hne ss 0 heap m hm (Frame.cut_within hwi hc).2 (by
    intro k x p h1 h2
    rcases Nat.eq_zero_or_pos k with rfl | hk
    · apply hp x p (by rw [List.head?_eq_getElem?]; exact h1)
      rw [List.head?_eq_getElem?, ← h2]
      unfold cyclic
      rw [Nat.zero_add, Nat.zero_mod]
    · exact Frame.cut_skip hc (by omega) h1)
  have hr := Timeboard.new_reads a heap m hm
  have hrd : a.read m = (readInTurns (elems.map (Layout.read f a.defaultLabel)) 0 ss m).map (fun r => (f, r.1, r.2)) := by
    unfold Args.read
    rw [hl]
    simp only
    unfold Args.readLayout
    rw [if_neg (by rintro ⟨g1, g2⟩; rcases hw with g | g <;> contradiction), Args.frame_eq, hf]
    simp only
    conv => lhs; unfold Layout.read
    rw [hc]
    simp only
    rw [if_neg (by simpa using hne), Layout.readAll_eq]
    cases readInTurns (elems.map (Layout.read f a.defaultLabel)) 0 ss m with
    | error e => rfl
    | ok r =>
      simp only
      rw [ha, amendPieces_nil]
      rfl
  rw [hrd] at hr
  cases hq : readInTurns (elems.map (Layout.read f a.defaultLabel)) 0 ss m with
  | error e =>
    rw [hq] at hb hr
    simp only [Except.map] at hb hr
    rw [hb]
    exact hr
  | ok r =>
    obtain ⟨ps, m'⟩ := r
    rw [hq] at hb hr
    obtain ⟨tbs, heap1, wss, b1, b2, b3, b4, b5, b6⟩ := hb
    obtain ⟨tb, heap2, r1, r2, r3⟩ := hr
    rw [b1]
    exact ⟨tb, heap2, wss, m', r1, b2, r2, b3, b4, by rw [← b5]; exact r3.lists, b6⟩

/-- **C104**, the workshift found at a time in the timeboard and in that of the span. -/
theorem C104_lookup {a : Args L} {heap heap1 heap2 : Heap L} {m : Memory L} (hm : heap.Shows m) {cut : Cut} {elems : List (Layout L)} {f : Frame}
    {ss : List Span} (hl : a.layout = .organizer cut elems) (hne : elems ≠ []) (ha : a.amendments = [])
    (hf : Frame.new a.freq a.start a.stop = .ok f)
    (hc : f.cut { first := 0, last := (f.n : Int) - 1 } cut = .ok ss) (hlev : ∀ e ∈ elems, e.Level f)
    (hp : ∀ x p, ss.head? = some x → elems.head? = some (.pattern p) → x.skipLeft = 0) {tb : Timeboard L} {tbs : List (Timeboard L)}
    (hn : Timeboard.new a heap = .ok (tb, heap2)) (hb : buildParts a f elems 0 ss heap = .ok (tbs, heap1))
    {k : Nat} {x : Span} (hx : ss[k]? = some x) {t : Time} (h1 : f.unitStart x.first ≤ t) (h2 : t ≤ f.unitEnd x.last) :
    ∃ e part heap3 heap4 s w w', cyclic elems k = some e ∧ tbs[k]? = some part ∧ Timeboard.new (a.ofPart f x e) heap3 = .ok (part, heap4) ∧
      tb.getWorkshift t = .ok w ∧ w.Looks tb s ∧ part.getWorkshift t = .ok w' ∧ w'.Looks part s := by
  have hw : a.worktimeSource = "duration" ∨ a.worktimeSource = "labels" := by
    obtain ⟨_, _, _, _, _, hh, _⟩ := Timeboard.new_ok_iff.1 hn
    simpa using hh
  have hN := C104_nested a heap m hm hl hne ha hw hf hc hlev hp
  rw [hb] at hN
  obtain ⟨tb', heap2', wss, m', n1, _, _, n2, n3, n4, n5⟩ := hN
  rw [hn] at n1
  cases n1
  obtain ⟨g1, g2⟩ := buildParts_get hne hb
  have hlt : k < ss.length := by
    rcases Nat.lt_or_ge k ss.length with h' | h'
    · exact h'
    · rw [List.getElem?_eq_none h'] at hx; cases hx
  have hk : tbs[k]? = some (tbs[k]'(by omega)) := List.getElem?_eq_getElem _
  have hk' : wss[k]? = some (wss[k]'(by omega)) := List.getElem?_eq_getElem _
  obtain ⟨e, h3, h4, e1, e2⟩ := g2 hx hk
  rw [Nat.zero_add] at e1
  have hN := n5 k _ _ hk hk'
  have hff : f.freq = a.freq := by rw [Frame.new_ok_iff] at hf; rw [hf.2]
  have hwi : ({ first := 0, last := (f.n : Int) - 1 } : Span).Within f.n := by
    have := Frame.new_valid hf
    unfold Frame.Valid at this
    exact ⟨Int.le_refl _, by simp only; omega, by simp only; omega⟩
  have hxw := (Frame.cut_within hwi hc).2 x (List.mem_of_getElem? hx)
  obtain ⟨_, b1, b2⟩ := Timeboard.new_bounds (a := a.ofPart f x e) ha e2 (f := f.part x) (by rw [← Frame.part_new f hxw.2.1, hff]; rfl)
  have hnn : ((f.part x).n : Int) = x.last - x.first + 1 := by
    unfold Frame.part
    have := hxw.2.1
    simp only; omega
  rw [Frame.part_unitStart, Int.zero_add] at b1
  rw [Frame.part_unitEnd, hnn, show x.last - x.first + 1 - 1 + x.first = x.last by omega] at b2
  obtain ⟨s, s1, s2, s3⟩ := hN.finds (.new e2) (t := t) (by omega) (by omega)
  obtain ⟨w', w1, w2⟩ := hN.found (.new e2) s1 s2 s3
  obtain ⟨w, w3, w4⟩ := n4.found (.new hn) (List.mem_flatten.2 ⟨_, List.mem_of_getElem? hk', s1⟩) s2 s3
  exact ⟨e, _, h3, h4, s, w, w', e1, hk, e2, w3, w4, w1, w2⟩

/-- **C104**, markers whose marks are starts of base units. -/
theorem C104_level (f : Frame) :
    (∀ each, Cut.Level f (.marker ⟨each, []⟩)) ∧ (∀ m : Marker, m.Regular f.freq → f.freq.mult = 1 → Cut.Level f (.marker m)) :=
  ⟨fun _ _ h => (by cases h), fun _ h1 h2 => h1.level h2⟩

/-- What can be seen of all workshifts. -/
def allShifts (tb : Timeboard Int) : Except Err (List (Seen Int)) :=
  (List.range tb.timeline.len.toNat).mapM (fun (k : Nat) => (Workshift.new tb k).bind (fun w => (w.startTime tb).bind (fun s =>
    (w.endTime tb).bind (fun e => (w.duration tb).map (fun d => ⟨s, e, d, w.label⟩)))))

/-- Seasons: from the first of May and from 16 September, weeks of different patterns; the year ends in the middle of a season. -/
def nestedArgs : Args Int where
  freq := fD
  start := date 2016 4 20
  stop := date 2016 10 2
  layout := .organizer (.marker (offsetMarker fA [{ months := 4 }, { months := 8, days := 15 }]))
    [.organizer (.marker ⟨fW, []⟩) [.pattern (.list [1, 1, 1, 1, 1, 0, 0])],
     .organizer (.marker ⟨fM, []⟩) [.label 5, .organizer (.marker (offsetMarker fW [{ days := 2 }])) [.label 2, .pattern (.list [3, 4])]]]
  selector := fun l => l != 0
  defaultLabel := 0

-- the hypotheses of the theorem are met, ...
example : ∃ f ss, Frame.new nestedArgs.freq nestedArgs.start nestedArgs.stop = .ok f ∧
    f.cut { first := 0, last := (f.n : Int) - 1 } (.marker (offsetMarker fA [{ months := 4 }, { months := 8, days := 15 }])) = .ok ss ∧
    ss.map (fun x => (x.first, x.last, x.skipLeft)) = [(0, 10, 217), (11, 148, 0), (149, 165, 0)] ∧
    (∀ e ∈ ([.organizer (.marker ⟨fW, []⟩) [.pattern (.list [1, 1, 1, 1, 1, 0, 0])],
      .organizer (.marker ⟨fM, []⟩) [.label 5, .organizer (.marker (offsetMarker fW [{ days := 2 }])) [.label 2, .pattern (.list [3, 4])]]] :
      List (Layout Int)), e.Level f) := by
  refine ⟨{ freq := fD, o0 := dayOf (date 2016 4 20), n := 166 }, _, by decide +kernel, rfl, by decide +kernel, ?_⟩
  have hr : (offsetMarker fW [{ days := 2 }]).Regular fD := (C75_offset_marks (bu := fD) (each := fW) (offs := [{ days := 2 }]) (by decide) (by decide) (by simp) (by decide)).1
  intro e he
  simp only [List.mem_cons, List.not_mem_nil, or_false] at he
  rcases he with rfl | rfl
  · simp [Layout.Level, Layout.LevelAll, (C104_level _).1]
  · simp [Layout.Level, Layout.LevelAll, (C104_level _).1]
    exact (C104_level _).2 _ hr rfl
-- ... and the timeboard has the workshifts of the three parts
example : (match Timeboard.new nestedArgs heap0, (Frame.new nestedArgs.freq nestedArgs.start nestedArgs.stop) with
    | .ok (tb, _), .ok f => match nestedArgs.layout with
      | .organizer cut elems => match f.cut { first := 0, last := (f.n : Int) - 1 } cut with
        | .ok ss => match buildParts nestedArgs f elems 0 ss heap0 with
          | .ok (tbs, _) => some (tbs.map (fun (part : Timeboard Int) => part.timeline.len), decide ((allShifts tb).toOption = ((List.mapM allShifts tbs).map List.flatten).toOption))
          | _ => none
        | _ => none
      | _ => none
    | _, _ => none) = some ([11, 38, 17], true) := by decide +kernel

/-- Two days in hours; the first day is divided by a mark in the middle of its last hour. -/
def halfHourArgs : Args Int where
  freq := fH
  start := date 2017 1 2
  stop := date 2017 1 3 + 23 * nsHour
  layout := .organizer (.marker ⟨fD, []⟩) [.organizer (.marks [date 2017 1 2 + 23 * nsHour + 30 * nsMin]) [.label 1, .label 2]]
  selector := fun l => l != 0
  defaultLabel := 0

/-- **C104** without the requirement for marks fails: in the last base unit of a timeboard, and only there, a mark counts only if it is within
the first second.  The day which is divided in two within the timeboard of two days is not divided when it is the timeboard. -/
theorem C104_negation_marks : (Timeboard.new halfHourArgs heap0).map (fun r => r.1.timeline.len) = .ok 3 ∧
    (Frame.new halfHourArgs.freq halfHourArgs.start halfHourArgs.stop).bind (fun f =>
      (f.cut { first := 0, last := (f.n : Int) - 1 } (.marker ⟨fD, []⟩)).bind (fun ss =>
        (buildParts halfHourArgs f [.organizer (.marks [date 2017 1 2 + 23 * nsHour + 30 * nsMin]) [.label 1, .label 2]] 0 ss heap0).map
          (fun r => r.1.map (fun part => part.timeline.len)))) = .ok [1, 1] := by
  decide +kernel

end TB
