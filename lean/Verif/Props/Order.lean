import Verif.Lemmas.Order
import Verif.Props.Superfluous
import Verif.Props.Continue
/-! Property C134: the order of divisions one inside the other makes no difference. -/
namespace TB
open TB.Ex
variable {L : Type}

/-- What the layouts do on all spans decides. -/
theorem Timeboard.new_same_run (a : Args L) (heap : Heap L) {l l' : Layout L} (m1 : makeOrganizer l = .ok l) (m2 : makeOrganizer l' = .ok l')
    (h : ∀ {f : Frame}, f.freq = a.freq → ∀ {s : Span}, s.Within f.n → ∀ st, Layout.run f l s st = Layout.run f l' s st) :
    Timeboard.new { a with layout := l } heap = Timeboard.new { a with layout := l' } heap := by
  unfold Timeboard.new
  simp only
  rw [m1, m2]
  simp only
  split
  · rfl
  · cases hf : Frame.new a.freq a.start a.stop with
    | error e => rfl
    | ok f =>
      have hn : 0 < f.n := Frame.new_valid hf
      have e : Timeline.new f (some l) a.refEnd a.defaultLabel heap = Timeline.new f (some l') a.refEnd a.defaultLabel heap := by
        unfold Timeline.new
        simp only
        rw [h (f := f) (by rw [(Frame.new_ok_iff.1 hf).2]) (s := { first := 0, last := (f.n : Int) - 1 }) ⟨by simp, by simp only; omega, by simp only; omega⟩]
      simp only
      rw [e]

/-- **C134.** Organizers one inside the other, each with a single element and dividing by marks, calendar periods or regular markers, may change places if the innermost
element is not a pattern: a label, an Organizer of any kind. -/
theorem C134_order (a : Args L) (heap : Heap L) {cs cs' : List Cut} (hp : cs.Perm cs') (hc : ∀ c ∈ cs, c.Plain a.freq) {l : Layout L} (hl : ∀ p, l ≠ .pattern p) :
    Timeboard.new { a with layout := l.nest cs } heap = Timeboard.new { a with layout := l.nest cs' } heap := by
  cases cs with
  | nil => rw [hp.nil_eq]
  | cons c cs =>
    cases cs' with
    | nil => exact absurd hp.symm.nil_eq (fun h => by cases h)
    | cons c' cs' => exact Timeboard.new_same_run a heap rfl rfl (fun hf => Layout.run_nest hp (by rw [hf]; exact hc) hl)

/-- **C134.** The same anywhere in a layout, together with the rules of C131, C132 and C133: layouts which can be rewritten to each other give the same
timeboard. -/
theorem C134_anywhere (a : Args L) (heap : Heap L) {l l' : Layout L} (h : l.Rewrites a.freq l') (m1 : makeOrganizer l = .ok l) (m2 : makeOrganizer l' = .ok l') :
    Timeboard.new { a with layout := l } heap = Timeboard.new { a with layout := l' } heap :=
  Timeboard.new_same_run a heap m1 m2 (fun hf => Layout.Rewrites.run (by rw [hf]; exact h))

/-- **C134.** In particular two of them. -/
theorem C134_swap (a : Args L) (heap : Heap L) {c c' : Cut} (hc : c.Plain a.freq) (hc' : c'.Plain a.freq) {l : Layout L} (hl : ∀ p, l ≠ .pattern p) :
    Timeboard.new { a with layout := .organizer c [.organizer c' [l]] } heap = Timeboard.new { a with layout := .organizer c' [.organizer c [l]] } heap :=
  C134_order a heap (cs := [c, c']) (cs' := [c', c]) (.swap _ _ _) (fun x hx => by
    rcases List.mem_cons.1 hx with rfl | hx
    · exact hc
    · rcases List.mem_cons.1 hx with rfl | hx
      · exact hc'
      · cases hx) hl

/-- **C134.** Divisions one inside the other amount to a single division at all the marks and beginnings of periods. -/
theorem C134_as_marks (a : Args L) (heap : Heap L) {f : Frame} (hf : Frame.new a.freq a.start a.stop = .ok f) {cs : List Cut} (hne : cs ≠ [])
    (hp : ∀ c ∈ cs, c.Plain a.freq) (hc : ∀ c ∈ cs, c.Accepted a.freq) {us : List Time}
    (hu : ∀ i : Int, 0 < i → i < f.n → ((∃ t ∈ us, f.fallsIn i t = true) ↔ ∃ c ∈ cs, c.Begins f i)) {l : Layout L} (hl : ∀ p, l ≠ .pattern p) :
    Timeboard.new { a with layout := l.nest cs } heap = Timeboard.new { a with layout := .organizer (.marks us) [l] } heap := by
  have hn : 0 < f.n := Frame.new_valid hf
  have hff : f.freq = a.freq := by rw [(Frame.new_ok_iff.1 hf).2]
  have m1 : makeOrganizer (l.nest cs) = .ok (l.nest cs) := by
    cases cs with
    | nil => exact absurd rfl hne
    | cons c cs => rfl
  have e : Timeline.new f (some (l.nest cs)) a.refEnd a.defaultLabel heap = Timeline.new f (some (.organizer (.marks us) [l])) a.refEnd a.defaultLabel heap := by
    unfold Timeline.new
    simp only
    rw [Layout.run_as_marks cs hne (by rw [hff]; exact hp) (by rw [hff]; exact hc) us hu hl (s := { first := 0, last := (f.n : Int) - 1 })
      ⟨by simp, by simp only; omega, by simp only; omega⟩]
  unfold Timeboard.new
  simp only
  rw [m1]
  simp only [makeOrganizer, hf]
  rw [e]

/-- **C134.** If the innermost element is a label, each workshift begins where some of the divisions has a mark or the beginning of a period, and each of
these base units begins a workshift. -/
theorem C134_starts (a : Args L) (heap : Heap L) (hm : a.amendments = []) (hw : a.worktimeSource ∈ ["duration", "labels"]) {f : Frame}
    (hf : Frame.new a.freq a.start a.stop = .ok f) {cs : List Cut} (hne : cs ≠ []) (hp : ∀ c ∈ cs, c.Plain a.freq) (hc : ∀ c ∈ cs, c.Accepted a.freq) (x : L) :
    ∃ tb, Timeboard.new { a with layout := (Layout.label x).nest cs } heap = .ok (tb, heap) ∧ (∃ d l, tb.Starts tb.startTime d l) ∧
      (∀ i : Int, 0 < i → i < f.n → ((∃ d l, tb.Starts (f.unitStart i) d l) ↔ ∃ c ∈ cs, c.Begins f i)) ∧
      (∀ t d l, tb.Starts t d l → ∃ i : Int, 0 ≤ i ∧ i < f.n ∧ t = f.unitStart i) := by
  obtain ⟨us, hus⟩ := f.marks_exist (fun i => ∃ c ∈ cs, c.Begins f i)
  rw [C134_as_marks a heap hf hne hp hc (fun i h1 h2 => hus i (by omega) h2) (fun p h => by cases h)]
  obtain ⟨tb, e, _, h1, h2, h3, h4⟩ := C04_workshifts_at_marks_partial (a := { a with layout := .organizer (.marks us) [.label x] }) (heap := heap) (ts := us)
    (ls := [x]) (f := f) hm rfl (fun h => by cases h) hw hf
  refine ⟨tb, e, h1, fun i i1 i2 => ?_, h4⟩
  rw [← hus i (by omega) i2]
  by_cases hi : i = (f.n : Int) - 1
  · rw [h3 i i1 hi]
    simp only [Frame.fallsIn, hi, if_true, decide_eq_true_eq]
  · rw [h2 i i1 (by omega)]
    simp only [Frame.fallsIn, hi, if_false, decide_eq_true_eq]

/-- **C134.** Markers with the built-in functions in `at` are among the divisions. -/
theorem C134_markers {bu : Freq} :
    (∀ {each : Freq} {offs : List Offset}, checkGroupbyFreq bu each = true → each.mult = 1 → offs ≠ [] → (∀ o ∈ offs, o.Nonneg) →
      Cut.Plain bu (.marker (offsetMarker each offs))) ∧
    (∀ {each : Freq} {args : List (Int × Int × Int)}, each.mult = 1 → each.base.Monthly → bu.Daily → args ≠ [] →
      (∀ x ∈ args, NthArgs x.1 x.2.1 x.2.2) → Cut.Plain bu (.marker (weekdayMarker each args))) ∧
    ∀ {shifts : List Int}, bu.Daily → shifts ≠ [] → Cut.Plain bu (.marker (easterMarker shifts)) :=
  ⟨fun hc hm hne hpos => .regular (C75_offset_marks hc hm hne hpos).1,
    fun hm hmon hd hne hargs => .regular (C75_weekday_marks hm hmon hd hne hargs).1, fun hd hne => .regular (C75_easter_marks hd hne).1⟩

/-- Thursdays in months, months in Thursdays. -/
def orderThursdays : List Cut := [.marker ⟨fM, []⟩, .marker (offsetMarker fW [{ days := 3 }])]

example : ∀ c ∈ orderThursdays, c.Plain fD := by
  intro c hc
  rcases List.mem_cons.1 hc with rfl | hc
  · exact .periods rfl
  · rcases List.mem_cons.1 hc with rfl | hc
    · exact C134_markers.1 (by decide) (by decide) (by simp) (by decide)
    · cases hc

example : (Timeboard.new (superfluousArgs ((Layout.label 1).nest orderThursdays)) (fun _ => Cycle.start [])).map (fun r => r.1.timeline.wsIdx) =
      .ok [0, 6, 12, 13, 20, 27, 34, 40, 41, 48] ∧
    (Timeboard.new (superfluousArgs ((Layout.label 1).nest orderThursdays.reverse)) (fun _ => Cycle.start [])).map (fun r => r.1.timeline.wsIdx) =
      .ok [0, 6, 12, 13, 20, 27, 34, 40, 41, 48] := by decide +kernel

/-- Weeks in months, months in weeks, with a mark in all six places. -/
def orderCuts : List Cut := [.marker ⟨fM, []⟩, .marks [date 2017 2 15], .marker ⟨fW, []⟩]

example : ∀ c ∈ orderCuts, c.Plain fD := by
  intro c hc
  rcases List.mem_cons.1 hc with rfl | hc
  · exact .periods rfl
  · rcases List.mem_cons.1 hc with rfl | hc
    · exact .marks _
    · rcases List.mem_cons.1 hc with rfl | hc
      · exact .periods rfl
      · cases hc

example : (Timeboard.new (superfluousArgs ((Layout.label 1).nest orderCuts)) (fun _ => Cycle.start [])).map (fun r => r.1.timeline.wsIdx) =
      .ok [0, 3, 10, 12, 17, 24, 26, 31, 38, 40, 45] ∧
    (Timeboard.new (superfluousArgs ((Layout.label 1).nest orderCuts.reverse)) (fun _ => Cycle.start [])).map (fun r => r.1.timeline.wsIdx) =
      .ok [0, 3, 10, 12, 17, 24, 26, 31, 38, 40, 45] := by decide +kernel

example : ∀ c ∈ orderCuts, c.Accepted fD := by
  intro c hc
  rcases List.mem_cons.1 hc with rfl | hc
  · show checkGroupbyFreq fD fM = true; decide
  · rcases List.mem_cons.1 hc with rfl | hc
    · trivial
    · rcases List.mem_cons.1 hc with rfl | hc
      · show checkGroupbyFreq fD fW = true; decide
      · cases hc

/-- Weeks in months instead of months in weeks in the first element of a structure, and an organizer more in the second one. -/
example : (Layout.organizer (.marks [date 2017 2 15]) [(Layout.label 1).nest [.marker ⟨fM, []⟩, .marker ⟨fW, []⟩], .label (2 : Int)]).Rewrites fD
    (.organizer (.marks [date 2017 2 15]) [(Layout.label 1).nest [.marker ⟨fW, []⟩, .marker ⟨fM, []⟩], .organizer (.marks []) [.label 2]]) := by
  refine .trans (.element _ [] _ (.order (.swap _ _ _) ?_ (fun p h => by cases h))) (.element _ [_] [] (.symm (.shorter (.whole _ (fun p h => by cases h)))))
  intro c hc
  rcases List.mem_cons.1 hc with rfl | hc
  · exact .periods rfl
  · rcases List.mem_cons.1 hc with rfl | hc
    · exact .periods rfl
    · cases hc

/-- A pattern is another matter: it goes on with the innermost calendar periods. -/
example : (Timeboard.new (superfluousArgs (.organizer (.marker ⟨fM, []⟩) [.organizer (.marker ⟨fW, []⟩) [.pattern (.list [1, 2, 3])]])) (fun _ => Cycle.start [])).map
      (fun r => r.1.timeline.labels) ≠
    (Timeboard.new (superfluousArgs (.organizer (.marker ⟨fW, []⟩) [.organizer (.marker ⟨fM, []⟩) [.pattern (.list [1, 2, 3])]])) (fun _ => Cycle.start [])).map
      (fun r => r.1.timeline.labels) := by decide +kernel

/-- So are structures with more elements. -/
example : (Timeboard.new (superfluousArgs (.organizer (.marker ⟨fM, []⟩) [.organizer (.marker ⟨fW, []⟩) [.label 1, .label 2]])) (fun _ => Cycle.start [])).map
      (fun r => r.1.timeline.labels) ≠
    (Timeboard.new (superfluousArgs (.organizer (.marker ⟨fW, []⟩) [.organizer (.marker ⟨fM, []⟩) [.label 1, .label 2]])) (fun _ => Cycle.start [])).map
      (fun r => r.1.timeline.labels) := by decide +kernel

end TB
