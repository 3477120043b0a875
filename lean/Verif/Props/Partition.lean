import Verif.Lemmas.Layout3
import Verif.Examples.Boards
/-! Properties C04, C05, C47: where spans start. -/
namespace TB
open TB.Ex
variable {L : Type}

/-- **C04**, on a span of a frame.  Missing from the full statement: in the last base unit of the frame a mark is noticed
only during the first second of the unit (`C04_negation`). -/
theorem C04_spans_at_marks_partial (f : Frame) (s : Span) (ts : List Time) (h0 : 0 ≤ s.first) (h1 : s.first ≤ s.last) (h2 : s.last < f.n) :
    ∃ ss, f.partitionAtMarks s ts = .ok ss ∧ Tiles s.first s.last ss ∧ (∀ x ∈ ss, x.skipLeft = 0 ∧ x.skipRight = 0) ∧
      (∀ i, s.first < i → i ≤ s.last → i < (f.n : Int) - 1 →
        ((∃ x ∈ ss, x.first = i) ↔ ∃ t ∈ ts, f.unitStart i ≤ t ∧ t ≤ f.unitEnd i)) ∧
      (∀ i, s.first < i → i ≤ s.last → i = (f.n : Int) - 1 →
        ((∃ x ∈ ss, x.first = i) ↔ ∃ t ∈ ts, f.unitStart i ≤ t ∧ t < f.unitStart i + nsSec)) := by
  obtain ⟨ss, hss⟩ := Frame.createSubspans_exists ts h0 h1 h2
  refine ⟨ss, hss, (Frame.createSubspans_tiles hss).2.2, ?_, ?_, ?_⟩
  · obtain ⟨_, _, _, rfl⟩ := Frame.createSubspans_ok_iff.1 hss
    exact spansBetween_skip _ _ _
  · intro i hi1 hi2 hi3
    rw [Frame.createSubspans_first hss]
    unfold Frame.noticedEnd
    rw [if_neg (by omega), Frame.unitEnd_eq]
    constructor
    · rintro (h | ⟨_, _, t, ht, h3, h4⟩)
      · omega
      · exact ⟨t, ht, h3, by omega⟩
    · rintro ⟨t, ht, h3, h4⟩
      exact .inr ⟨hi1, hi2, t, ht, h3, by omega⟩
  · intro i hi1 hi2 hi3
    rw [Frame.createSubspans_first hss]
    unfold Frame.noticedEnd
    rw [if_pos hi3]
    constructor
    · rintro (h | ⟨_, _, t, ht, h3, h4⟩)
      · omega
      · exact ⟨t, ht, h3, h4⟩
    · rintro ⟨t, ht, h3, h4⟩
      exact .inr ⟨hi1, hi2, t, ht, h3, h4⟩

/-- A span outside of the frame or empty is refused. -/
theorem C04_invalid_span (f : Frame) (s : Span) (ts : List Time) (h : ¬ (0 ≤ s.first ∧ s.first ≤ s.last ∧ s.last < f.n)) :
    f.partitionAtMarks s ts = .error .outOfBounds ∨ f.partitionAtMarks s ts = .error .voidInterval := by
  cases hk : f.checkSpan s with
  | ok u => exact absurd (Frame.checkSpan_ok_iff.1 hk) h
  | error e =>
    have : f.partitionAtMarks s ts = .error e := by
      unfold Frame.partitionAtMarks Frame.createSubspans Frame.locateSubspans
      simp only [hk, Bind.bind, Except.bind]
    rw [this]
    rcases Frame.checkSpan_error hk with rfl | rfl <;> simp

/-- Workshifts of a timeboard by start time, from the spans. -/
theorem starts_of_spans {tb : Timeboard L} {f : Frame} {ss : List Span} {ls : List L} (hls : ls ≠ [])
    (h : ∀ t d l, tb.Starts t d l ↔ ∃ (k : Nat) (x : Span), ss[k]? = some x ∧ t = f.unitStart x.first ∧ d = x.last - x.first + 1 ∧
        cyclic ls k = some l) (i : Int) : (∃ d l, tb.Starts (f.unitStart i) d l) ↔ ∃ x ∈ ss, x.first = i := by
  constructor
  · rintro ⟨d, l, hs⟩
    obtain ⟨k, x, hk, ht, _, _⟩ := (h _ _ _).1 hs
    refine ⟨x, List.mem_of_getElem? hk, ?_⟩
    have a1 := Frame.unitStart_le_iff (f := f) (i := x.first) (j := i)
    have a2 := Frame.unitStart_le_iff (f := f) (i := i) (j := x.first)
    omega
  · rintro ⟨x, hx, rfl⟩
    obtain ⟨k, hk⟩ := List.getElem?_of_mem hx
    obtain ⟨l, hl⟩ := cyclic_some hls k
    exact ⟨_, l, (h _ _ _).2 ⟨k, x, hk, rfl, rfl, hl⟩⟩

/-- **C04**, on a timeboard whose layout is `Organizer(marks=ts, structure=[label, ...])`: where workshifts start. -/
theorem C04_workshifts_at_marks_partial {a : Args L} {heap : Heap L} {ts : List Time} {ls : List L} {f : Frame}
    (ha : a.amendments = []) (hlay : a.layout = .organizer (.marks ts) (ls.map .label)) (hls : ls ≠ [])
    (hw : a.worktimeSource ∈ ["duration", "labels"]) (hf : Frame.new a.freq a.start a.stop = .ok f) :
    ∃ tb, Timeboard.new a heap = .ok (tb, heap) ∧ tb.timeline.frame = f ∧
      (∃ d l, tb.Starts tb.startTime d l) ∧
      (∀ i, 0 < i → i < (f.n : Int) - 1 →
        ((∃ d l, tb.Starts (f.unitStart i) d l) ↔ ∃ t ∈ ts, f.unitStart i ≤ t ∧ t ≤ f.unitEnd i)) ∧
      (∀ i, 0 < i → i = (f.n : Int) - 1 →
        ((∃ d l, tb.Starts (f.unitStart i) d l) ↔ ∃ t ∈ ts, f.unitStart i ≤ t ∧ t < f.unitStart i + nsSec)) ∧
      (∀ t d l, tb.Starts t d l → ∃ i : Int, 0 ≤ i ∧ i < f.n ∧ t = f.unitStart i) := by
  have hn := Frame.new_valid hf
  unfold Frame.Valid at hn
  obtain ⟨ss, h1, h2, h3, h4, h5⟩ := C04_spans_at_marks_partial f { first := 0, last := (f.n : Int) - 1 } ts (by simp) (by simp only; omega) (by simp only; omega)
  obtain ⟨tb, g1, g2, g3⟩ := Timeboard.labels_organizer (heap := heap) ha hlay hls hw hf (by exact h1)
  refine ⟨tb, g1, g2, ?_, ?_, ?_, ?_⟩
  · have e : tb.startTime = f.unitStart 0 := by unfold Timeboard.startTime Frame.startTime; rw [g2]
    rw [e, starts_of_spans hls g3]
    obtain ⟨k, x, hk, hx1, hx2⟩ := h2.cover (i := 0) (by simp only; omega) (by simp only; omega)
    have := h2.mem (List.mem_of_getElem? hk)
    simp only at this
    exact ⟨x, List.mem_of_getElem? hk, by omega⟩
  · intro i i0 i1
    rw [starts_of_spans hls g3]
    exact h4 i i0 (by simp only; omega) i1
  · intro i i0 i1
    rw [starts_of_spans hls g3]
    exact h5 i i0 (by simp only; omega) i1
  · intro t d l hs
    obtain ⟨k, x, hk, ht, _, _⟩ := (g3 _ _ _).1 hs
    have := h2.mem (List.mem_of_getElem? hk)
    simp only at this
    exact ⟨x.first, by omega, by omega, ht⟩

def marksArgs (ts : List Time) : Args Int where
  freq := fD
  start := date 2017 1 1
  stop := date 2017 1 10
  layout := .organizer (.marks ts) [.label 1, .label 2]
  selector := fun l => decide (l > 1)
  defaultLabel := 0

/-- Unordered, repeated, outside and mid-day marks. -/
example : (Timeboard.new (marksArgs [date 2017 1 7 + 5 * nsHour, date 2017 1 3 + nsHour, date 2017 1 3, date 2018 1 1, date 2017 1 1 + nsHour,
      date 2016 1 1, date 2017 1 10]) heap0).map (fun r => (r.1.timeline.wsIdx, r.1.timeline.labels)) =
    .ok ([0, 2, 6, 9], [1, 2, 1, 2]) := by decide +kernel

/-- The full statement of C04 is false: a mark at noon of the last day is not noticed. -/
theorem C04_negation : ¬ ∀ (f : Frame) (s : Span) (ts : List Time), 0 ≤ s.first → s.first ≤ s.last → s.last < f.n →
    ∃ ss, f.partitionAtMarks s ts = .ok ss ∧ ∀ i, s.first < i → i ≤ s.last →
      ((∃ x ∈ ss, x.first = i) ↔ ∃ t ∈ ts, f.unitStart i ≤ t ∧ t ≤ f.unitEnd i) := by
  intro hall
  obtain ⟨ss, h1, h2⟩ := hall ⟨fD, 0, 2⟩ ⟨0, 1, 0, 0⟩ [nsDay + 12 * nsHour] (by decide) (by decide) (by decide)
  have e : Frame.partitionAtMarks ⟨fD, 0, 2⟩ ⟨0, 1, 0, 0⟩ [nsDay + 12 * nsHour] = .ok [⟨0, 1, 0, 0⟩] := by decide +kernel
  rw [e] at h1
  cases h1
  obtain ⟨x, hx, he⟩ := (h2 1 (by decide) (by decide)).2 ⟨nsDay + 12 * nsHour, by simp, by decide +kernel, by decide +kernel⟩
  simp at hx; subst hx
  exact absurd he (by decide)

/-- **C05.** Partitioning with a calendar marker.  For a multiplied marker frequency the periods are counted from the one
which contains the start of the span. -/
theorem C05_calendar_spans (f : Frame) (s : Span) (each : Freq) (hc : checkGroupbyFreq f.freq each = true)
    (h0 : 0 ≤ s.first) (h1 : s.first ≤ s.last) (h2 : s.last < f.n) :
    ∃ ss, f.partitionWithMarker s ⟨each, []⟩ = .ok ss ∧ Tiles s.first s.last ss ∧
      ∀ i, s.first < i → i ≤ s.last → ((∃ x ∈ ss, x.first = i) ↔
        ∃ p : Period, p.freq = each ∧ (each.mult : Int) ∣ p.ord - (Period.ofTime each (f.unitStart s.first)).ord ∧
          f.unitStart i ≤ p.startTime ∧ p.startTime ≤ f.unitEnd i) := by
  obtain ⟨ss, g1, g2, _, g4⟩ := Frame.partition_calendar (s := s) hc h0 h1 h2
  refine ⟨ss, g1, g2, ?_⟩
  intro i hi1 hi2
  rw [g4 i hi1 hi2]
  constructor
  · rintro ⟨o, ho⟩; exact ⟨⟨each, o⟩, rfl, ho⟩
  · rintro ⟨⟨_, o⟩, rfl, ho⟩; exact ⟨o, ho⟩

/-- **C05**, on a timeboard whose layout is `Organizer(marker=each, structure=[label, ...])`. -/
theorem C05_calendar_workshifts {a : Args L} {heap : Heap L} {each : Freq} {ls : List L} {f : Frame}
    (ha : a.amendments = []) (hlay : a.layout = .organizer (.marker ⟨each, []⟩) (ls.map .label)) (hls : ls ≠ [])
    (hw : a.worktimeSource ∈ ["duration", "labels"]) (hf : Frame.new a.freq a.start a.stop = .ok f) :
    (checkGroupbyFreq a.freq each = false → Timeboard.new a heap = .error .unacceptablePeriod) ∧
    (checkGroupbyFreq a.freq each = true → ∃ tb, Timeboard.new a heap = .ok (tb, heap) ∧ tb.timeline.frame = f ∧
      (∃ d l, tb.Starts tb.startTime d l) ∧
      ∀ i, 0 < i → i < (f.n : Int) →
        ((∃ d l, tb.Starts (f.unitStart i) d l) ↔
          ∃ p : Period, p.freq = each ∧ (each.mult : Int) ∣ p.ord - (Period.ofTime each tb.startTime).ord ∧
          f.unitStart i ≤ p.startTime ∧ p.startTime ≤ f.unitEnd i)) := by
  have hn := Frame.new_valid hf
  unfold Frame.Valid at hn
  have hff : f.freq = a.freq := by rw [(Frame.new_ok_iff.1 hf).2]
  constructor
  · intro hc
    have horg : makeOrganizer a.layout = .ok (.organizer (.marker ⟨each, []⟩) (ls.map .label)) := by rw [hlay]; rfl
    refine Timeboard.new_of_run_error horg hw hf ?_
    simp only [Layout.run, Frame.cutSpan, Frame.partitionWithMarker, hff, hc, Bool.not_false, if_true, Bind.bind, Except.bind, throw, throwThe,
      MonadExceptOf.throw]
  · intro hc
    obtain ⟨ss, g1, g2, g4⟩ := C05_calendar_spans f { first := 0, last := (f.n : Int) - 1 } each (by rw [hff]; exact hc) (by simp) (by simp only; omega) (by simp only; omega)
    obtain ⟨tb, k1, k2, k3⟩ := Timeboard.labels_organizer (heap := heap) ha hlay hls hw hf (by exact g1)
    have e : tb.startTime = f.unitStart 0 := by unfold Timeboard.startTime Frame.startTime; rw [k2]
    refine ⟨tb, k1, k2, ?_, ?_⟩
    · rw [e, starts_of_spans hls k3]
      obtain ⟨k, x, hk, hx1, hx2⟩ := g2.cover (i := 0) (by simp only; omega) (by simp only; omega)
      have := g2.mem (List.mem_of_getElem? hk)
      simp only at this
      exact ⟨x, List.mem_of_getElem? hk, by omega⟩
    · intro i i0 i1
      rw [starts_of_spans hls k3, e]
      exact g4 i i0 (by simp only; omega)

def calArgs (each : Freq) : Args Int where
  freq := fD
  start := date 2017 1 30
  stop := date 2017 3 5
  layout := .organizer (.marker ⟨each, []⟩) [.label 1, .label 2]
  selector := fun l => decide (l > 1)
  defaultLabel := 0

/-- Months from 30 January to 5 March; weeks; an unacceptable frequency. -/
example : (Timeboard.new (calArgs fM) heap0).map (fun r => (r.1.timeline.wsIdx, r.1.timeline.labels)) = .ok ([0, 2, 30], [1, 2, 1]) ∧
    (Timeboard.new (calArgs fW) heap0).map (fun r => r.1.timeline.wsIdx) = .ok [0, 7, 14, 21, 28] ∧
    (Timeboard.new (calArgs fH) heap0).map (fun r => r.1.timeline.wsIdx) = .error .unacceptablePeriod := by decide +kernel

/-- **C47.** When a marker frequency is accepted, every period of its denomination starts together with a base unit (for base
units which are not multiplied); multiplied base units accept only multiples of themselves. -/
theorem C47_accepted_frequencies {bu gb : Freq} (h : checkGroupbyFreq bu gb = true) :
    (bu.mult = 1 → ∀ p : Period, p.freq = gb → ∃ q : Period, q.freq = bu ∧ q.startTime = p.startTime) ∧
    (bu.mult ≠ 1 → bu.base = gb.base ∧ bu.mult ∣ gb.mult) ∧
    (bu.mult = 1 → gb.mult = 1 → ∀ p q : Period, p.freq = gb → q.freq = bu → p.startTime ≤ q.endTime → q.startTime ≤ p.endTime →
      p.startTime ≤ q.startTime ∧ q.endTime ≤ p.endTime) := by
  have key : bu.mult = 1 → ∀ o, ∃ o', gb.base.startOf o = bu.base.startOf o' := by
    intro hm
    rcases checkGroupby_aligned h with ⟨_, h2⟩ | ⟨h1, h2⟩
    · exact h2
    · intro o; exact ⟨o, by rw [h1]⟩
  refine ⟨?_, ?_, ?_⟩
  · rintro hm ⟨_, o⟩ rfl
    obtain ⟨o', ho'⟩ := key hm o
    exact ⟨⟨bu, o'⟩, rfl, ho'.symm⟩
  · intro hm
    rcases checkGroupby_aligned h with ⟨h1, _⟩ | h2
    · exact absurd h1 hm
    · exact h2
  · rintro hm hg ⟨g, o⟩ ⟨b, o'⟩ rfl rfl h1 h2
    obtain ⟨x, hx⟩ := key hm o
    obtain ⟨y, hy⟩ := key hm (o + 1)
    simp only [Period.startTime, Period.endTime] at h1 h2 hx hy hm hg ⊢
    simp only [hm, hg, hx, hy, Int.natCast_one] at h1 h2 ⊢
    have a1 := (b.base.startOf_lt_iff x (o' + 1)).1 (by omega)
    have a2 := (b.base.startOf_lt_iff o' y).1 (by omega)
    have a3 := (b.base.startOf_le_startOf x o').2 (by omega)
    have a4 := (b.base.startOf_le_startOf (o' + 1) y).2 (by omega)
    omega

example : checkGroupbyFreq fD fM = true ∧ checkGroupbyFreq fH fW = true ∧ checkGroupbyFreq fW fM = false ∧
    checkGroupbyFreq (Denom.Q (some 0)).freq fA = false ∧ checkGroupbyFreq (Denom.Q (some 2)).freq fA = true ∧
    checkGroupbyFreq ⟨some 4, .H, by decide⟩ ⟨some 12, .H, by decide⟩ = true ∧
    checkGroupbyFreq ⟨some 4, .H, by decide⟩ fD = false := by decide +kernel

end TB
