import Verif.Lemmas.MarkerZero
import Verif.Props.Partition
/-! Properties C44, C45: markers with offsets. -/
namespace TB
open TB.Ex
variable {L : Type}

/-- `Marker(each, at=[{...}, ...])`, with the default `how`: the keyword arguments are offsets. -/
def offsetMarker (each : Freq) (offs : List Offset) : Marker := ⟨each, offs.map (fun o => fromStartOfEach (some o))⟩

/-- **C44**, with two restrictions.  Missing from the full statement: multiplied marker frequencies (`C44_negation_multiplied`);
the right dangle for years which end with a month from February to June (`C44_negation_year`). -/
theorem C44_zero_offset_partial (f : Frame) (s : Span) (each : Freq) (hm : each.mult = 1) :
    (¬ each.base.ShortYear → f.partitionWithMarker s (offsetMarker each [{ days := 0 }]) = f.partitionWithMarker s ⟨each, []⟩) ∧
    (checkGroupbyFreq f.freq each = true → 0 ≤ s.first → s.first ≤ s.last → s.last < f.n →
      ∃ ss ts, f.partitionWithMarker s (offsetMarker each [{ days := 0 }]) = .ok ss ∧ f.partitionWithMarker s ⟨each, []⟩ = .ok ts ∧
        ss.map (fun x => (x.first, x.last, x.skipLeft)) = ts.map (fun x => (x.first, x.last, x.skipLeft))) := by
  constructor
  · intro hs
    by_cases hc : checkGroupbyFreq f.freq each = true
    · by_cases hv : 0 ≤ s.first ∧ s.first ≤ s.last ∧ s.last < f.n
      · obtain ⟨spans, b, a, a', h1, h2, h3⟩ := Frame.partition_zero (s := s) hc hm hv.1 hv.2.1 hv.2.2
        have h3 := h3 (ordOf_lt_delta hm hs _)
        unfold offsetMarker
        simp only [List.map_cons, List.map_nil]
        rw [h1, h2, h3]
      · cases hk : f.checkSpan s with
        | ok u => exact absurd (Frame.checkSpan_ok_iff.1 hk) hv
        | error e =>
          unfold Frame.partitionWithMarker offsetMarker
          simp only [Bind.bind, Except.bind, throw, throwThe, MonadExceptOf.throw, hc, hk, Bool.not_true, Bool.false_eq_true, if_false]
    · rw [Bool.not_eq_true] at hc
      unfold Frame.partitionWithMarker offsetMarker
      simp only [Bind.bind, Except.bind, throw, throwThe, MonadExceptOf.throw, hc, Bool.not_false, if_true]
  · intro hc h0 h1 h2
    obtain ⟨spans, b, a, a', g1, g2, g3⟩ := Frame.partition_zero (s := s) hc hm h0 h1 h2
    refine ⟨_, _, g2, g1, ?_⟩
    have key : ∀ (y y' : Int) (l : List Span), (setLastSkip y l).map (fun x => (x.first, x.last, x.skipLeft)) =
        (setLastSkip y' l).map (fun x => (x.first, x.last, x.skipLeft)) := by
      intro y y' l
      induction l with
      | nil => rfl
      | cons s ss ih =>
        cases ss with
        | nil => rfl
        | cons t r => simp only [setLastSkip, List.map_cons] at ih ⊢; rw [ih]
    exact key _ _ _

/-- A month cut at both ends. -/
example : checkGroupbyFreq fD fM = true ∧ ¬ fM.base.ShortYear ∧
    (Frame.new fD (date 2017 1 30) (date 2017 3 5)).bind (fun f => f.partitionWithMarker ⟨0, 34, 0, 0⟩ (offsetMarker fM [{ days := 0 }])) =
      .ok [⟨0, 1, 29, 0⟩, ⟨2, 29, 0, 0⟩, ⟨30, 34, 0, 26⟩] := by decide +kernel

def f2M : Freq := ⟨some 2, .M, by decide⟩
def fAJUN : Freq := (Denom.A (some 5)).freq

/-- The full statement of C44 fails for multiplied frequencies: with the zero offset two-month periods are counted from a month
before the span. -/
theorem C44_negation_multiplied : ∃ (f : Frame) (s : Span), checkGroupbyFreq f.freq f2M = true ∧ 0 ≤ s.first ∧ s.first ≤ s.last ∧ s.last < f.n ∧
    f.partitionWithMarker s ⟨f2M, []⟩ = .ok [⟨0, 60, 0, 0⟩, ⟨61, 121, 0, 0⟩] ∧
    f.partitionWithMarker s (offsetMarker f2M [{ days := 0 }]) = .ok [⟨0, 30, 28, 0⟩, ⟨31, 91, 0, 0⟩, ⟨92, 121, 0, 31⟩] := by
  refine ⟨⟨fD, dayNum 2017 3 1, 122⟩, ⟨0, 121, 0, 0⟩, ?_⟩
  decide +kernel

/-- It also fails for a year which ends with June: the rest of the last year is reported as undefined. -/
theorem C44_negation_year : ∃ (f : Frame) (s : Span), checkGroupbyFreq f.freq fAJUN = true ∧ 0 ≤ s.first ∧ s.first ≤ s.last ∧ s.last < f.n ∧
    f.partitionWithMarker s ⟨fAJUN, []⟩ = .ok [⟨0, 0, 364, 0⟩, ⟨1, 1, 0, 365⟩] ∧
    f.partitionWithMarker s (offsetMarker fAJUN [{ days := 0 }]) = .ok [⟨0, 0, 364, 0⟩, ⟨1, 1, 0, -1⟩] := by
  refine ⟨⟨fD, dayNum 2015 6 30, 2⟩, ⟨0, 1, 0, 0⟩, ?_⟩
  decide +kernel

/-- **C45.** Spans of a marker with offsets from the start of each period. -/
theorem C45_offset_spans (f : Frame) (s : Span) (each : Freq) (offs : List Offset) (hc : checkGroupbyFreq f.freq each = true)
    (hm : each.mult = 1) (hne : offs ≠ []) (hpos : ∀ o ∈ offs, o.Nonneg) (h0 : 0 ≤ s.first) (h1 : s.first ≤ s.last) (h2 : s.last < f.n) :
    ∃ ss, f.partitionWithMarker s (offsetMarker each offs) = .ok ss ∧ Tiles s.first s.last ss ∧
      ∀ i, s.first < i → i ≤ s.last → ((∃ x ∈ ss, x.first = i) ↔
        ∃ off ∈ offs, ∃ p : Period, p.freq = each ∧ addOffset p.startTime (some off) ≤ p.endTime ∧
          f.unitStart i ≤ addOffset p.startTime (some off) ∧ addOffset p.startTime (some off) ≤ f.unitEnd i) := by
  obtain ⟨ss, g1, g2, g3⟩ := Frame.partition_offsets hc hm hne hpos h0 h1 h2
  refine ⟨ss, ?_, g2, ?_⟩
  · unfold offsetMarker
    rw [← g1, List.map_map]; rfl
  · intro i hi1 hi2
    rw [g3 i hi1 hi2]
    constructor
    · rintro ⟨off, ho, o, h3, h4⟩
      refine ⟨off, ho, ⟨each, o⟩, rfl, ?_, h4⟩
      unfold Period.endTime
      simp only [Period.startTime, hm, Int.natCast_one]
      omega
    · rintro ⟨off, ho, ⟨g, o⟩, hg, h3, h4⟩
      simp only at hg
      subst hg
      refine ⟨off, ho, o, ?_, h4⟩
      have h3' : addOffset (g.base.startOf o) (some off) ≤ g.base.startOf (o + g.mult) - 1 := h3
      rw [hm] at h3'
      simp only [Int.natCast_one] at h3'
      omega

/-- **C45.** What an offset means: years and months move the point to the same day of another month or to the last day of a
shorter month, keeping the time of the day; the rest is a fixed amount of time added afterwards. -/
theorem C45_offset_arithmetic (t : Time) (o : Offset) : ∃ u, addOffset t (some o) =
      u + (((7 * o.weeks + o.days) * 24 + o.hours) * 3600 + o.minutes * 60 + o.seconds) * nsSec ∧
    u % nsDay = t % nsDay ∧
    monthOf (dayOf u) = monthOf (dayOf t) + (12 * o.years + o.months) ∧
    (dayOfMonth (dayOf u) = dayOfMonth (dayOf t) ∨
      (dayOfMonth (dayOf u) < dayOfMonth (dayOf t) ∧ dayOf u + 1 = monthStart (monthOf (dayOf u) + 1))) := by
  refine ⟨addMonths t (12 * o.years + o.months), ?_, ?_⟩
  · simp only [addOffset, Offset.fixed, nsDay, nsHour, nsMin, nsSec]; omega
  · generalize 12 * o.years + o.months = n
    unfold addMonths
    simp only
    have h1 := monthOf_spec (dayOf t)
    have h2 := monthStart_step (monthOf (dayOf t) + n)
    have e2 := Int.emod_lt_of_pos t (show 0 < nsDay by decide)
    have e3 := Int.emod_nonneg t (show nsDay ≠ 0 by decide)
    have hd : ∀ x : Int, dayOf (x * nsDay + t % nsDay) = x := by
      intro x
      unfold dayOf
      rw [Int.add_comm, Int.add_mul_ediv_right _ _ (by decide), Int.ediv_eq_zero_of_lt e3 e2]; omega
    have hdm : dayOfMonth (dayOf t) = dayOf t - monthStart (monthOf (dayOf t)) + 1 := rfl
    have hml : monthLen (monthOf (dayOf t) + n) = monthStart (monthOf (dayOf t) + n + 1) - monthStart (monthOf (dayOf t) + n) := rfl
    have hmo : monthOf (monthStart (monthOf (dayOf t) + n) + min (dayOfMonth (dayOf t)) (monthLen (monthOf (dayOf t) + n)) - 1) = monthOf (dayOf t) + n := by
      apply monthOf_unique <;> omega
    refine ⟨?_, ?_, ?_⟩
    · rw [Int.mul_comm, Int.mul_add_emod_self_left, Int.emod_emod]
    · rw [hd, hmo]
    · rw [hd]
      generalize hX : monthStart (monthOf (dayOf t) + n) + min (dayOfMonth (dayOf t)) (monthLen (monthOf (dayOf t) + n)) - 1 = X at hmo ⊢
      have e4 : dayOfMonth X = X - monthStart (monthOf X) + 1 := rfl
      rw [hmo] at e4 ⊢
      omega

/-- **C45.** With offsets which lead back in time there are no marks: the span is not partitioned and its dangles are undefined. -/
theorem C45_negative_offset (f : Frame) (s : Span) (each : Freq) (offs : List Offset) (hc : checkGroupbyFreq f.freq each = true) (hm : each.mult = 1)
    (hne : offs ≠ []) (hneg : ∀ o ∈ offs, addOffset testTime (some o) < testTime) (h0 : 0 ≤ s.first) (h1 : s.first ≤ s.last) (h2 : s.last < f.n) :
    f.partitionWithMarker s (offsetMarker each offs) = .ok [⟨s.first, s.last, -1, -1⟩] := by
  have hab := Frame.unitStart_le_unitEnd' (f := f) h1
  obtain ⟨pi, hpi, _⟩ := stencil_envelope hm hab
  obtain ⟨cand, hcand, hmem⟩ := collectAts_offsets pi f.freq (offs.map some)
  have hnil : cand = [] := by
    rw [List.eq_nil_iff_forall_not_mem]
    intro t ht
    obtain ⟨o', ho', h3, _⟩ := (hmem t).1 ht
    rw [List.mem_map] at ho'
    obtain ⟨o, ho, rfl⟩ := ho'
    have := hneg o ho
    omega
  subst hnil
  have hats : (offs.map (fun o => fromStartOfEach (some o))).isEmpty = false := by cases offs <;> simp at hne ⊢
  have hcand' : collectAts pi f.freq (offs.map (fun o => fromStartOfEach (some o))) = .ok [] := by
    rw [← hcand, List.map_map]; rfl
  refine Frame.partitionWithMarker_none hc h0 h1 h2 ?_
  unfold Frame.stencilFor offsetMarker
  simp only [hats, Bool.false_eq_true, if_false, hpi, hcand', Bind.bind, Except.bind]
  rfl

/-- **C45**, on a timeboard whose layout is `Organizer(marker=Marker(each, at=offs), structure=[label, ...])`. -/
theorem C45_offset_workshifts {a : Args L} {heap : Heap L} {each : Freq} {offs : List Offset} {ls : List L} {f : Frame}
    (ha : a.amendments = []) (hlay : a.layout = .organizer (.marker (offsetMarker each offs)) (ls.map .label)) (hls : ls ≠ [])
    (hw : a.worktimeSource ∈ ["duration", "labels"]) (hf : Frame.new a.freq a.start a.stop = .ok f)
    (hm : each.mult = 1) (hne : offs ≠ []) (hpos : ∀ o ∈ offs, o.Nonneg) :
    (checkGroupbyFreq a.freq each = false → Timeboard.new a heap = .error .unacceptablePeriod) ∧
    (checkGroupbyFreq a.freq each = true → ∃ tb, Timeboard.new a heap = .ok (tb, heap) ∧ tb.timeline.frame = f ∧
      (∃ d l, tb.Starts tb.startTime d l) ∧
      ∀ i, 0 < i → i < (f.n : Int) →
        ((∃ d l, tb.Starts (f.unitStart i) d l) ↔
          ∃ off ∈ offs, ∃ p : Period, p.freq = each ∧ addOffset p.startTime (some off) ≤ p.endTime ∧
            f.unitStart i ≤ addOffset p.startTime (some off) ∧ addOffset p.startTime (some off) ≤ f.unitEnd i)) := by
  have hn := Frame.new_valid hf
  unfold Frame.Valid at hn
  have hff : f.freq = a.freq := by rw [(Frame.new_ok_iff.1 hf).2]
  constructor
  · intro hc
    have horg : makeOrganizer a.layout = .ok (.organizer (.marker (offsetMarker each offs)) (ls.map .label)) := by rw [hlay]; rfl
    refine Timeboard.new_of_run_error horg hw hf ?_
    simp only [Layout.run, Frame.cutSpan, Frame.partitionWithMarker, offsetMarker, hff, hc, Bool.not_false, if_true, Bind.bind, Except.bind, throw, throwThe,
      MonadExceptOf.throw]
  · intro hc
    obtain ⟨ss, g1, g2, g4⟩ := C45_offset_spans f { first := 0, last := (f.n : Int) - 1 } each offs (by rw [hff]; exact hc) hm hne hpos (by simp) (by simp only; omega) (by simp only; omega)
    obtain ⟨tb, k1, k2, k3⟩ := Timeboard.labels_organizer (heap := heap) ha hlay hls hw hf (by exact g1)
    have e : tb.startTime = f.unitStart 0 := by unfold Timeboard.startTime Frame.startTime; rw [k2]
    refine ⟨tb, k1, k2, ?_, ?_⟩
    · rw [e, starts_of_spans hls k3]
      obtain ⟨k, x, hk, hx1, hx2⟩ := g2.cover (i := 0) (by simp only; omega) (by simp only; omega)
      have := g2.mem (List.mem_of_getElem? hk)
      simp only at this
      exact ⟨x, List.mem_of_getElem? hk, by omega⟩
    · intro i i0 i1
      rw [starts_of_spans hls k3]
      exact g4 i i0 (by simp only; omega)

/-- Days with two marks, at 8:00 and at 20:30; an offset of a month and more than a month; 30 days after the start of February. -/
example : (Frame.new fH (date 2017 1 1) (date 2017 1 2)).bind (fun f => f.partitionWithMarker ⟨0, 24, 0, 0⟩
      (offsetMarker fD [{ hours := 8 }, { hours := 20, minutes := 30 }])) = .ok [⟨0, 7, 4, 0⟩, ⟨8, 19, 0, 0⟩, ⟨20, 24, 0, 7⟩] ∧
    (Frame.new fD (date 2017 1 1) (date 2017 3 31)).bind (fun f => f.partitionWithMarker ⟨0, 89, 0, 0⟩
      (offsetMarker fM [{ days := 30 }, { months := 1 }])) = .ok [⟨0, 29, 1, 0⟩, ⟨30, 88, 0, 0⟩, ⟨89, 89, 0, 60⟩] ∧
    addOffset (date 2017 1 31) (some { months := 1, hours := 3 }) = date 2017 2 28 + 3 * nsHour ∧
    (Offset.Nonneg { hours := 20, minutes := 30 }) ∧ addOffset testTime (some { days := -1 }) < testTime := by decide +kernel

end TB
