import Verif.Lemmas.Construct
import Verif.Props.Amend
import Verif.Model.When
import Verif.Examples.Boards
/-! Construction of timeboards: every refusal has one of the documented reasons. -/
namespace TB
open TB.Ex
variable {L : Type}

theorem makeOrganizer_error {l : Layout L} {e : Err} (h : makeOrganizer l = .error e) :
    e = .typeError ∧ ((∃ x, l = .label x) ∨ ∃ i, l = .pattern (.rp i)) := by
  match l, h with
  | .label x, h => cases h; exact ⟨rfl, .inl ⟨x, rfl⟩⟩
  | .pattern (.rp i), h => cases h; exact ⟨rfl, .inr ⟨i, rfl⟩⟩

theorem makeOrganizer_fault {l org : Layout L} {f : Frame} {e : Err} (h : makeOrganizer l = .ok org) (hf : org.Fault f e) : l.Fault f e := by
  match l, h with
  | .organizer c es, h => cases h; exact hf
  | .organizerRP c i, h => cases h; exact hf
  | .pattern (.list xs), h =>
    cases h
    have hw : ∀ (x : Layout L), Layout.Within x (.organizer (.marks []) [.pattern (.list xs)]) →
        x = .organizer (.marks []) [.pattern (.list xs)] ∨ x = .pattern (.list xs) := by
      intro x hx
      cases hx with
      | here => exact .inl rfl
      | elem hm hw =>
        simp only [List.mem_singleton] at hm
        subst hm
        cases hw
        exact .inr rfl
    have hu : ∀ m, ¬ Layout.UsesMarker (.organizer (.marks []) [.pattern (.list xs)]) m := by
      rintro m (⟨es, h⟩ | ⟨i, h⟩)
      · rcases hw _ h with h | h <;> simp at h
      · rcases hw _ h with h | h <;> simp at h
    rcases hf with ⟨m, h, _⟩ | ⟨m, h, _⟩ | ⟨⟨m, p, es, h, _⟩, _⟩
    · exact absurd h (hu m)
    · exact absurd h (hu m)
    · exact absurd (.inl ⟨_, h⟩) (hu m)

theorem makeOrganizer_notPattern {l org : Layout L} (h : makeOrganizer l = .ok org) : ∀ p, org ≠ .pattern p := by
  rintro p rfl
  match l, h with
  | .organizer c es, h => cases h
  | .organizerRP c i, h => cases h
  | .pattern (.list xs), h => cases h

/-- **C76.** If a timeboard cannot be constructed, the exception has one of these reasons: the layout is neither an iterable
nor an Organizer (TypeError); the worktime source is neither 'duration' nor 'labels' (ValueError); the base unit of the end
precedes the base unit of the start (VoidIntervalError); a marker of the layout has a period which is not acceptable for the
base unit (UnacceptablePeriodError); a `how` function of a marker of the layout raised it; a pattern comes
first in an Organizer whose marker has `at` and which is applied to base units with no mark to start from, that is, none at or
before the start of the first base unit (OutOfBoundsError); two amendments refer to one workshift of the
timeboard without amendments (KeyError). -/
theorem C76_construction_errors {a : Args L} {heap : Heap L} {e : Err} (h : Timeboard.new a heap = .error e) :
    (e = .typeError ∧ ((∃ x, a.layout = .label x) ∨ ∃ i, a.layout = .pattern (.rp i))) ∨
    (e = .valueError ∧ a.worktimeSource ≠ "duration" ∧ a.worktimeSource ≠ "labels") ∨
    (e = .voidInterval ∧ a.freq.base.ordOf a.stop < a.freq.base.ordOf a.start) ∨
    (∃ f, Frame.new a.freq a.start a.stop = .ok f ∧ a.layout.Fault f e) ∨
    (e = .keyError ∧ ∃ tb0 heap', Timeboard.new a.plain heap = .ok (tb0, heap') ∧ tb0.Conflict a.amendments) := by
  by_cases hp : ∃ tb0 heap', Timeboard.new a.plain heap = .ok (tb0, heap')
  · obtain ⟨tb0, heap', hp⟩ := hp
    have hc := C13_conflict_rejected hp
    by_cases hcf : tb0.Conflict a.amendments
    · rw [hc.1 hcf] at h; cases h
      exact .inr (.inr (.inr (.inr ⟨rfl, tb0, heap', hp, hcf⟩)))
    · obtain ⟨tb, htb⟩ := hc.2.1 hcf
      rw [htb] at h; cases h
  · unfold Timeboard.new at h
    cases ho : makeOrganizer a.layout with
    | error e' => rw [ho] at h; cases h; exact .inl (makeOrganizer_error ho)
    | ok org =>
      rw [ho] at h
      simp only at h
      by_cases hw : a.worktimeSource ∈ ["duration", "labels"]
      · rw [if_neg (fun hn => hn hw)] at h
        cases hf : Frame.new a.freq a.start a.stop with
        | error e' => rw [hf] at h; cases h; exact .inr (.inr (.inl (Frame.new_error_iff.1 hf)))
        | ok frame =>
          rw [hf] at h
          simp only at h
          obtain ⟨hle, hfr⟩ := Frame.new_ok_iff.1 hf
          cases ht : Timeline.new frame (some org) a.refEnd a.defaultLabel heap with
          | error e' =>
            rw [ht] at h; cases h
            refine .inr (.inr (.inr (.inl ⟨frame, rfl, makeOrganizer_fault ho ?_⟩)))
            simp only [Timeline.new] at ht
            split at ht
            · rename_i e1 he
              cases ht
              have hn : 0 < frame.n := Frame.new_valid hf
              rcases Layout.run_fault frame org _ _ _ (by simp) (by simp only; omega) (by simp only; omega) he with hh | ⟨⟨p, rfl⟩, _⟩
              · exact hh
              · exact absurd rfl (makeOrganizer_notPattern ho p)
            · cases ht
          | ok r =>
            obtain ⟨tl0, heap'⟩ := r
            refine absurd ⟨_, heap', Timeboard.new_ok_iff.2 ⟨org, frame, tl0, tl0, ho, hw, hf, ht, ?_, rfl⟩⟩ hp
            rfl
      · rw [if_pos hw] at h
        cases h
        simp only [List.mem_cons, List.not_mem_nil, or_false, not_or] at hw
        exact .inr (.inl ⟨rfl, hw⟩)

/-- The exceptions do occur, in this order of checks. -/
theorem C76_refusals (a : Args L) (heap : Heap L) :
    ((∃ x, a.layout = .label x) ∨ (∃ i, a.layout = .pattern (.rp i)) → Timeboard.new a heap = .error .typeError) ∧
    ((∀ x, a.layout ≠ .label x) → (∀ i, a.layout ≠ .pattern (.rp i)) →
      (a.worktimeSource ≠ "duration" → a.worktimeSource ≠ "labels" → Timeboard.new a heap = .error .valueError) ∧
      (a.worktimeSource = "duration" ∨ a.worktimeSource = "labels" →
        (a.freq.base.ordOf a.stop < a.freq.base.ordOf a.start → Timeboard.new a heap = .error .voidInterval) ∧
        (a.freq.base.ordOf a.start ≤ a.freq.base.ordOf a.stop → ∀ m, checkGroupbyFreq a.freq m.each = false →
          (∃ es, a.layout = .organizer (.marker m) es) ∨ (∃ i, a.layout = .organizerRP (.marker m) i) →
          Timeboard.new a heap = .error .unacceptablePeriod))) := by
  refine ⟨?_, ?_⟩
  · rintro (⟨x, h⟩ | ⟨i, h⟩) <;> (unfold Timeboard.new; rw [h]; rfl)
  · intro h1 h2
    have ho : ∃ org, makeOrganizer a.layout = .ok org := by
      cases hm : makeOrganizer a.layout with
      | ok o => exact ⟨o, rfl⟩
      | error e =>
        rcases (makeOrganizer_error hm).2 with ⟨x, h⟩ | ⟨i, h⟩
        · exact absurd h (h1 x)
        · exact absurd h (h2 i)
    obtain ⟨org, ho⟩ := ho
    refine ⟨?_, ?_⟩
    · intro g1 g2
      unfold Timeboard.new
      rw [ho]
      simp [g1, g2]
    · intro hw
      have hw' : ¬ a.worktimeSource ∉ ["duration", "labels"] := by simpa using fun h => hw.resolve_left h
      refine ⟨?_, ?_⟩
      · intro hv
        unfold Timeboard.new
        rw [ho]
        simp only
        rw [if_neg hw', Frame.new_error_iff.2 ⟨rfl, hv⟩]
      · intro hv m hm hl
        obtain ⟨frame, hf⟩ : ∃ f, Frame.new a.freq a.start a.stop = .ok f := ⟨_, Frame.new_ok_iff.2 ⟨hv, rfl⟩⟩
        have hfq : frame.freq = a.freq := by rw [(Frame.new_ok_iff.1 hf).2]
        have hcut : ∀ s, frame.cutSpan (.marker m) s = .error .unacceptablePeriod := by
          intro s
          simp only [Frame.cutSpan]
          unfold Frame.partitionWithMarker
          simp [Bind.bind, Except.bind, throw, throwThe, MonadExceptOf.throw, hfq, hm]
        unfold Timeboard.new
        rw [ho]
        simp only
        rw [if_neg hw', hf]
        rcases hl with ⟨es, hl⟩ | ⟨i, hl⟩
        · rw [hl] at ho; cases ho
          simp [Timeline.new, Layout.run, hcut]
        · rw [hl] at ho; cases ho
          simp [Timeline.new, Layout.run, hcut]

theorem collectAts_raises {pi : Frame} {freq : Freq} {e : Err} {g : Frame → Freq → Except Err (List Time)} (hg : g pi freq = .error e) :
    ∀ (gs hs : List (Frame → Freq → Except Err (List Time))), (∀ x ∈ gs, ∃ ts, x pi freq = .ok ts) →
    collectAts pi freq (gs ++ g :: hs) = .error e := by
  intro gs hs
  induction gs with
  | nil => intro _; simp [collectAts, Bind.bind, Except.bind, hg]
  | cons x xs ih =>
    intro h
    obtain ⟨ts, hts⟩ := h x (by simp)
    simp [collectAts, Bind.bind, Except.bind, hts, ih (fun y hy => h y (by simp [hy]))]

/-- So do the exceptions caused by the marks of the whole timeboard: the first `how` function which raises makes the construction
raise the same exception, and so does (OutOfBoundsError) the lack of a mark at or before the start of the timeboard if the first
element of the structure is a pattern. -/
theorem C76_marks_refused {a : Args L} {heap : Heap L} {m : Marker} {f pi : Frame}
    (hw : a.worktimeSource = "duration" ∨ a.worktimeSource = "labels") (hf : Frame.new a.freq a.start a.stop = .ok f)
    (hm : checkGroupbyFreq a.freq m.each = true) (hpi : m.LooksAt f 0 (f.n - 1) pi) :
    (∀ gs g hs e, m.ats = gs ++ g :: hs → (∀ x ∈ gs, ∃ ts, x pi a.freq = .ok ts) → g pi a.freq = .error e →
      (∃ es, a.layout = .organizer (.marker m) es) ∨ (∃ i, a.layout = .organizerRP (.marker m) i) → Timeboard.new a heap = .error e) ∧
    (∀ p es, m.ats ≠ [] → a.layout = .organizer (.marker m) (.pattern p :: es) →
      (∀ how ∈ m.ats, ∃ ts, how pi a.freq = .ok ts ∧ ∀ t ∈ ts, f.unitStart 0 < t) → Timeboard.new a heap = .error .outOfBounds) := by
  have hw' : ¬ a.worktimeSource ∉ ["duration", "labels"] := by simpa using fun h => hw.resolve_left h
  have hfq : f.freq = a.freq := by rw [(Frame.new_ok_iff.1 hf).2]
  rw [← hfq] at hm ⊢
  have h0 : (0 : Int) ≤ f.n - 1 := hpi.2.1
  refine ⟨?_, ?_⟩
  · intro gs g hs e hats hgs hg hl
    have hst : f.stencilFor m (f.unitStart 0) (f.unitEnd (f.n - 1)) = .error e := by
      unfold Frame.stencilFor
      rw [if_neg (by rw [hats]; simp)]
      simp only [Bind.bind, Except.bind, hpi.2.2.2]
      rw [hats, collectAts_raises hg gs hs hgs]
    have hcut : f.cutSpan (.marker m) { first := 0, last := f.n - 1 } = .error e :=
      Frame.partitionWithMarker_error hm (by simp) (by simpa using h0) (by simp only; omega) hst
    unfold Timeboard.new
    rcases hl with ⟨es, hl⟩ | ⟨i, hl⟩
    · rw [hl]; simp only [makeOrganizer]
      rw [if_neg hw', hf]
      simp [Timeline.new, Layout.run, hcut]
    · rw [hl]; simp only [makeOrganizer]
      rw [if_neg hw', hf]
      simp [Timeline.new, Layout.run, hcut]
  · intro p es hats hl hno
    have hcut : ∃ x ss, f.cutSpan (.marker m) { first := 0, last := f.n - 1 } = .ok (x :: ss) ∧ x.skipLeft = -1 := by
      simp only [Frame.cutSpan]
      cases hst : f.stencilFor m (f.unitStart 0) (f.unitEnd (f.n - 1)) with
      | error e =>
        obtain ⟨g, hg, pi', hpi', he⟩ := Frame.stencilFor_error (Frame.unitStart_le_unitEnd' h0) hst
        rw [hpi.2.2.2] at hpi'; cases hpi'
        obtain ⟨ts, hts, _⟩ := hno g hg
        rw [hts] at he; cases he
      | ok o =>
        obtain ⟨pi', hpi', hiff⟩ := Frame.stencilFor_undefined (f.unitStart_lt_unitEnd h0) hats hst
        rw [hpi.2.2.2] at hpi'; cases hpi'
        have hu := hiff.2 hno
        cases o with
        | none => exact ⟨_, _, Frame.partitionWithMarker_none hm (by simp) (by simpa using h0) (by simp only; omega) hst, rfl⟩
        | some st =>
          obtain ⟨ss, g1, g2, g3, _⟩ := Frame.partitionWithMarker_some (s := { first := 0, last := f.n - 1 }) hm (by simp)
            (by simpa using h0) (by simp only; omega) hst
          cases ss with
          | nil => exact absurd g2 (by simp [Tiles])
          | cons x ss => exact ⟨x, ss, g1, by rw [g3.1]; simp [Frame.skipBefore, hu st rfl]⟩
    obtain ⟨x, ss, hcut, hx⟩ := hcut
    unfold Timeboard.new
    rw [hl]; simp only [makeOrganizer]
    rw [if_neg hw', hf]
    simp [Timeline.new, Layout.run, hcut, Layout.runAll, zipRun, Cycle.start, Cycle.next, applyPattern, hx]

theorem fromStartOfEach_total (k : Option Offset) (pi : Frame) (freq : Freq) : ∃ r, fromStartOfEach k pi freq = .ok r := by
  unfold fromStartOfEach
  split
  · exact ⟨_, rfl⟩
  · unfold maskBy
    rw [if_pos (by simp [Frame.startTimes, Frame.endTimes])]
    exact ⟨_, rfl⟩

/-- A timeboard without amendments can be constructed if its start is not in a later base unit than its end, its markers have
acceptable periods and at most points found by `from_start_of_each`, and no pattern is used under a marker with such
points. -/
theorem C76_constructed {a : Args L} {heap : Heap L} (hl1 : ∀ x, a.layout ≠ .label x) (hl2 : ∀ i, a.layout ≠ .pattern (.rp i))
    (hw : a.worktimeSource = "duration" ∨ a.worktimeSource = "labels") (hle : a.start ≤ a.stop)
    (hm : ∀ m, a.layout.UsesMarker m → checkGroupbyFreq a.freq m.each = true ∧ ∀ how ∈ m.ats, ∃ k, how = fromStartOfEach k)
    (hp : ¬ a.layout.PatternUnderAt) (ha : a.amendments = []) : ∃ r, Timeboard.new a heap = .ok r := by
  cases h : Timeboard.new a heap with
  | ok r => exact ⟨r, rfl⟩
  | error e =>
    exfalso
    rcases C76_construction_errors h with ⟨_, ⟨x, h⟩ | ⟨i, h⟩⟩ | ⟨_, h1, h2⟩ | ⟨_, h⟩ | ⟨f, _, h⟩ | ⟨_, tb, hp', h, i, j, p, q, k, _, hi, _⟩
    · exact hl1 x h
    · exact hl2 i h
    · rcases hw with hw | hw
      · exact h1 hw
      · exact h2 hw
    · have := a.freq.base.ordOf_mono hle
      omega
    · rename_i hf
      have hfq : f.freq = a.freq := by rw [(Frame.new_ok_iff.1 hf).2]
      rw [← hfq] at hm
      rcases h with ⟨m, h1, h2, _⟩ | ⟨m, h1, how, h2, _, _, pi, _, h3⟩ | ⟨⟨m, p, es, h1, h2, _⟩, _⟩
      · rw [(hm m h1).1] at h2; cases h2
      · obtain ⟨k, rfl⟩ := (hm m h1).2 how h2
        obtain ⟨r, hr⟩ := fromStartOfEach_total k pi f.freq
        rw [hr] at h3; cases h3
      · exact hp ⟨m, _, p, h1, h2, by simp⟩
    · rw [ha] at hi; simp at hi

/-- The refused and the constructed: a marker by days over weekly base units, an end before the start, an unknown source of
work time, a single label as the layout, a pattern before the first mark (there is no 31 February), a `how` function
which raises, conflicting amendments. -/
example : (Timeboard.new { weekArgs with freq := fW, layout := .organizer (.marker ⟨fD, []⟩) [.label 1] } heap0).map (fun _ => ()) =
      .error .unacceptablePeriod ∧
    (Timeboard.new { weekArgs with stop := weekArgs.start - 1 } heap0).map (fun _ => ()) = .error .voidInterval ∧
    (Timeboard.new { weekArgs with worktimeSource := "label" } heap0).map (fun _ => ()) = .error .valueError ∧
    (Timeboard.new { weekArgs with layout := .label 1 } heap0).map (fun _ => ()) = .error .typeError ∧
    (Timeboard.new { weekArgs with
      start := date 2017 3 5, stop := date 2017 4 5, amendments := []
      layout := .organizer (.marker ⟨fM, [fromStartOfEach (some { days := 30 })]⟩) [.pattern (.list [1])] } heap0).map (fun _ => ()) =
        .error .outOfBounds ∧
    (Timeboard.new { weekArgs with layout := .organizer (.marker ⟨fM, [fun _ _ => .error .typeError]⟩) [.label 1] } heap0).map (fun _ => ()) =
      .error .typeError ∧
    (Timeboard.new { weekArgs with amendments := [(weekArgs.start, 1), (weekArgs.start + 1, 1)] } heap0).map (fun _ => ()) = .error .keyError ∧
    (Timeboard.new weekArgs heap0).isOk = true := by decide +kernel

/-- **C03**: VoidIntervalError means that the base period of `end` precedes that of `start`, for every layout (unless a user-defined
`how` function raises it). -/
theorem C03_void_only {a : Args L} {heap : Heap L} (hm : ∀ m, a.layout.UsesMarker m → ∀ how ∈ m.ats, ∀ pi : Frame, how pi a.freq ≠ .error .voidInterval)
    (h : Timeboard.new a heap = .error .voidInterval) : a.freq.base.ordOf a.stop < a.freq.base.ordOf a.start := by
  rcases C76_construction_errors h with ⟨h, _⟩ | ⟨h, _⟩ | ⟨_, h⟩ | ⟨f, hf, h⟩ | ⟨h, _⟩
  · cases h
  · cases h
  · exact h
  · rcases h with ⟨_, _, _, h⟩ | ⟨m, hu, how, hh, _, _, pi, _, h⟩ | ⟨_, h⟩
    · cases h
    · rw [(Frame.new_ok_iff.1 hf).2] at h
      exact absurd h (hm m hu how hh pi)
    · cases h
  · cases h

end TB
