import Verif.Lemmas.MarkerAt
import Verif.Lemmas.Extend
/-! A marker with zero offset compared with a plain marker. -/
namespace TB

/-- Successful partitioning, written out. -/
theorem Frame.partitionWithMarker_spans {f : Frame} {s : Span} {m : Marker} {st : Stencil}
    (hc : checkGroupbyFreq f.freq m.each = true) (h0 : 0 ≤ s.first) (h1 : s.first ≤ s.last) (h2 : s.last < f.n)
    (hst : f.stencilFor m (f.unitStart s.first) (f.unitEnd s.last) = .ok (some st)) :
    f.partitionWithMarker s m = .ok (setLastSkip (f.skipAfter s st (f.unitEnd s.last))
      (setFirstSkip (f.skipBefore s st (f.unitStart s.first))
        (spansBetween s.first s.last (sortedSet (f.getLocVectorized st.points s.first s.last))))) := by
  have hsp := Frame.createSubspans_ok_iff.2 (show 0 ≤ s.first ∧ s.first ≤ s.last ∧ s.last < f.n ∧
    spansBetween s.first s.last (sortedSet (f.getLocVectorized st.points s.first s.last)) = _ from ⟨h0, h1, h2, rfl⟩)
  have hk := Frame.checkSpan_ok_iff.2 ⟨h0, h1, h2⟩
  unfold Frame.partitionWithMarker
  simp only [Bind.bind, Except.bind, pure, Except.pure, throw, throwThe, MonadExceptOf.throw, hc, hk, hst, hsp,
    Bool.not_true, Bool.false_eq_true, if_false]

theorem addOffset_zero (t : Time) : addOffset t (some {}) = t := by
  have := addOffset_days t 0
  simpa using this

/-- The stencil of a plain marker of unmultiplied frequency. -/
theorem Frame.stencil_plain {f : Frame} {each : Freq} (hm : each.mult = 1) {a b : Time} (hab : a ≤ b) :
    f.stencilFor ⟨each, []⟩ a b = .ok (some ⟨each.base.startOf (each.base.ordOf a), each.base.startOf (each.base.ordOf b + 1) - 1, false, false,
      (intRange (each.base.ordOf a) (each.base.ordOf b + 1)).map each.base.startOf⟩) := by
  have ho := each.base.ordOf_mono hab
  have hF := Frame.new_ok_iff.2 (show each.base.ordOf a ≤ each.base.ordOf b ∧ _ = _ from ⟨ho, rfl⟩)
  unfold Frame.stencilFor
  simp only [List.isEmpty_nil, if_true, hF, Bind.bind, Except.bind, pure, Except.pure, Except.ok.injEq, Option.some.injEq, Stencil.mk.injEq]
  refine ⟨?_, ?_, trivial, trivial, ?_⟩
  · simp only [Frame.startTime, Frame.unitStart, Frame.ord, Int.mul_zero, Int.add_zero]
  · simp only [Frame.endTime, Frame.unitEnd_eq, Frame.unitStart, Frame.ord, hm]
    congr 2; omega
  · simp only [Frame.startTimes, Frame.unitStart, Frame.ord, hm, intRange, List.map_map, Function.comp_def]
    have : ((each.base.ordOf b - each.base.ordOf a) / ((1 : Nat) : Int) + 1).toNat = (each.base.ordOf b + 1 - each.base.ordOf a).toNat := by omega
    rw [this]
    apply List.map_congr_left
    intro i _
    congr 1; omega

theorem head?_intRange {a b : Int} (h : a < b) : (intRange a b).head? = some a := by rw [intRange_cons h]; rfl

theorem getLast?_intRange {a b : Int} (h : a < b) : (intRange a b).getLast? = some (b - 1) := by
  have e : intRange a b = intRange a (b - 1) ++ [b - 1] := by
    rw [← intRange_append (a := a) (b := b - 1) (c := b) (by omega) (by omega), intRange_cons (show b - 1 < b by omega),
      intRange_empty (show b ≤ b - 1 + 1 by omega)]
  rw [e, List.getLast?_concat]

/-- The stencil of a marker with zero offset: the periods from the one with the start of the span to the one after the end of
the span, provided that the envelope reaches it. -/
theorem Frame.stencil_zero {f : Frame} {each : Freq} (hc : checkGroupbyFreq f.freq each = true) (hm : each.mult = 1) {a b : Time} (hab : a ≤ b)
    (hb : each.base.startOf (each.base.ordOf b) < b) {last : Int}
    (hlast : last = min (each.base.ordOf b + 1) (each.base.ordOf (b + getFreqDelta each))) :
    f.stencilFor ⟨each, [fromStartOfEach (some {})]⟩ a b = .ok (some ⟨each.base.startOf (each.base.ordOf a),
      max b (each.base.startOf last - nsSec), false, decide (each.base.startOf last < b),
      (intRange (each.base.ordOf a) (last + 1)).map each.base.startOf⟩) := by
  obtain ⟨hfm, hal⟩ := checkGroupby_unit hc hm
  obtain ⟨pi, hpi, hpf, hp0, hpl, hpr, hpr2, hps, hpe⟩ := stencil_envelope hm hab
  have hsn : ∀ o, snap f.freq (each.base.startOf o) = each.base.startOf o := by
    intro o
    obtain ⟨o', ho'⟩ := hal o
    unfold snap
    rw [ho', Base.ordOf_startOf]
  have hcand : collectAts pi f.freq [fromStartOfEach (some {})] = .ok (pi.startTimes ++ []) := by
    have h1 : fromStartOfEach (some {}) pi f.freq = .ok pi.startTimes := by
      rw [fromStartOfEach_eq (by rw [addOffset_zero]; exact Int.le_refl _)]
      have : ∀ i : Nat, snap f.freq (addOffset (pi.unitStart i) (some {})) = pi.unitStart i := by
        intro i; rw [addOffset_zero, hps, hsn]
      simp only [this]
      rw [List.filter_eq_self.2 (fun i _ => by simp [pi.unitStart_le_unitEnd])]
      rfl
    simp only [collectAts, h1, Bind.bind, Except.bind, pure, Except.pure]
  have hord := each.base.ordOf_mono hab
  have hsl : sliceAtPoints (sortList (pi.startTimes ++ [])) a b = (intRange (each.base.ordOf a) (last + 1)).map each.base.startOf := by
    have hsort : (sortList (pi.startTimes ++ [])).Pairwise (· < ·) := by
      apply pairwise_lt_sortList
      rw [List.append_nil]
      exact pi.pairwise_startTimes.imp (fun h => by omega)
    have hmem : ∀ x, x ∈ sortList (pi.startTimes ++ []) ↔ ∃ o, pi.o0 ≤ o ∧ o < pi.o0 + pi.n ∧ x = each.base.startOf o := by
      intro x
      rw [mem_sortList, List.append_nil]
      unfold Frame.startTimes
      rw [List.mem_map]
      constructor
      · rintro ⟨i, hi, rfl⟩
        rw [List.mem_range] at hi
        exact ⟨pi.o0 + i, by omega, by omega, hps i⟩
      · rintro ⟨o, h3, h4, rfl⟩
        refine ⟨(o - pi.o0).toNat, by rw [List.mem_range]; omega, ?_⟩
        rw [hps]; congr 1; omega
    apply eq_of_pairwise_lt
    · unfold sliceAtPoints
      exact (hsort.sublist (List.take_sublist _ _)).sublist (List.drop_sublist _ _)
    · rw [List.pairwise_map]
      exact (pairwise_intRange _ _).imp (fun h => (each.base.startOf_lt_iff _ _).2 h)
    · intro x
      rw [mem_sliceAtPoints_iff hsort, hmem, List.mem_map]
      constructor
      · rintro ⟨⟨o, h3, h4, rfl⟩, h5, h6⟩
        refine ⟨o, ?_, rfl⟩
        rw [mem_intRange]
        constructor
        · apply Classical.byContradiction
          intro hn
          have := h5 (each.base.startOf (o + 1)) ((hmem _).2 ⟨o + 1, by omega, by omega, rfl⟩) ((each.base.startOf_lt_iff _ _).2 (by omega))
          rw [Base.lt_startOf_iff] at this
          omega
        · apply Classical.byContradiction
          intro hn
          have h7 := h6 (each.base.startOf (o - 1)) ((hmem _).2 ⟨o - 1, by omega, by omega, rfl⟩) ((each.base.startOf_lt_iff _ _).2 (by omega))
          have := (each.base.lt_startOf_iff (o - 1) b).2 (by omega)
          omega
      · rintro ⟨o, ho, rfl⟩
        rw [mem_intRange] at ho
        refine ⟨⟨o, by omega, by omega, rfl⟩, ?_, ?_⟩
        · intro y hy hlt
          obtain ⟨o', _, _, rfl⟩ := (hmem y).1 hy
          rw [Base.startOf_lt_iff] at hlt
          rw [Base.lt_startOf_iff]; omega
        · intro y hy hlt
          obtain ⟨o', _, _, rfl⟩ := (hmem y).1 hy
          rw [Base.startOf_lt_iff] at hlt
          have := (each.base.startOf_le_startOf o' (each.base.ordOf b)).2 (by omega)
          omega
  have hle : each.base.ordOf a < last + 1 := by
    have := each.base.ordOf_mono (show b ≤ b + getFreqDelta each by have := getFreqDelta_pos each; omega)
    omega
  have hh : ((intRange (each.base.ordOf a) (last + 1)).map each.base.startOf).head? = some (each.base.startOf (each.base.ordOf a)) := by
    rw [List.head?_map, head?_intRange hle]; rfl
  have hl : ((intRange (each.base.ordOf a) (last + 1)).map each.base.startOf).getLast? = some (each.base.startOf last) := by
    rw [List.getLast?_map, getLast?_intRange hle]; simp
  have hsa := each.base.startOf_le_self a
  unfold Frame.stencilFor
  simp only [List.isEmpty_cons, Bool.false_eq_true, if_false, hpi, hcand, Bind.bind, Except.bind, pure, Except.pure, hsl, hh, hl,
    Except.ok.injEq, Option.some.injEq, Stencil.mk.injEq, and_true]
  refine ⟨by omega, trivial, ?_⟩
  first | (rw [decide_eq_false_iff_not]; omega) | trivial

/-- Periods start on a whole second. -/
theorem Base.startOf_sec (b : Base) (o : Int) : ∃ k, b.startOf o = k * nsSec := by
  cases b <;> simp only [Base.startOf, nsMin, nsHour, nsDay, nsSec]
  · exact ⟨o, rfl⟩
  · exact ⟨o * 60, by omega⟩
  · exact ⟨o * 3600, by omega⟩
  · exact ⟨o * 86400, by omega⟩
  · exact ⟨(7 * o + _ - 2) * 86400, by rw [Int.mul_assoc]; rfl⟩
  · exact ⟨monthStart o * 86400, by rw [Int.mul_assoc]; rfl⟩
  · exact ⟨monthStart _ * 86400, by rw [Int.mul_assoc]; rfl⟩
  · exact ⟨monthStart _ * 86400, by rw [Int.mul_assoc]; rfl⟩

theorem Frame.startOf_lt_unitEnd (f : Frame) (b : Base) (i : Int) : b.startOf (b.ordOf (f.unitEnd i)) < f.unitEnd i := by
  have h := b.startOf_le_self (f.unitEnd i)
  obtain ⟨k, hk⟩ := b.startOf_sec (b.ordOf (f.unitEnd i))
  obtain ⟨k', hk'⟩ := f.freq.base.startOf_sec (f.ord (i + 1))
  rw [hk] at h ⊢
  rw [Frame.unitEnd_eq] at h ⊢
  unfold Frame.unitStart at h ⊢
  rw [hk'] at h ⊢
  simp only [nsSec] at *
  omega

/-- **The bounds of the spans and the left dangle of a marker with zero offset are those of the plain marker**; the right
dangle too, if the envelope reaches the period after the span. -/
theorem Frame.partition_zero {f : Frame} {s : Span} {each : Freq} (hc : checkGroupbyFreq f.freq each = true) (hm : each.mult = 1)
    (h0 : 0 ≤ s.first) (h1 : s.first ≤ s.last) (h2 : s.last < f.n) :
    ∃ spans before after after', f.partitionWithMarker s ⟨each, []⟩ = .ok (setLastSkip after (setFirstSkip before spans)) ∧
      f.partitionWithMarker s ⟨each, [fromStartOfEach (some {})]⟩ = .ok (setLastSkip after' (setFirstSkip before spans)) ∧
      (each.base.ordOf (f.unitEnd s.last) < each.base.ordOf (f.unitEnd s.last + getFreqDelta each) → after' = after) := by
  obtain ⟨hfm, hal⟩ := checkGroupby_unit hc hm
  have hab := Frame.unitStart_le_unitEnd' (f := f) h1
  obtain ⟨last, hlast⟩ : ∃ last, last = min (each.base.ordOf (f.unitEnd s.last) + 1) (each.base.ordOf (f.unitEnd s.last + getFreqDelta each)) := ⟨_, rfl⟩
  have hz := Frame.stencil_zero hc hm hab (f.startOf_lt_unitEnd each.base s.last) hlast
  have hp := Frame.stencil_plain (f := f) hm hab
  have ez := Frame.partitionWithMarker_spans (m := ⟨each, [fromStartOfEach (some {})]⟩) hc h0 h1 h2 hz
  have ep := Frame.partitionWithMarker_spans (m := ⟨each, []⟩) hc h0 h1 h2 hp
  have hge : each.base.ordOf (f.unitEnd s.last) ≤ last := by
    have := each.base.ordOf_mono (show f.unitEnd s.last ≤ f.unitEnd s.last + getFreqDelta each by have := getFreqDelta_pos each; omega)
    omega
  have hpts : sortedSet (f.getLocVectorized ((intRange (each.base.ordOf (f.unitStart s.first)) (last + 1)).map each.base.startOf) s.first s.last) =
      sortedSet (f.getLocVectorized ((intRange (each.base.ordOf (f.unitStart s.first)) (each.base.ordOf (f.unitEnd s.last) + 1)).map each.base.startOf) s.first s.last) := by
    apply eq_of_pairwise_lt (pairwise_sortedSet _) (pairwise_sortedSet _)
    intro i
    rw [mem_sortedSet, mem_sortedSet, Frame.mem_getLocVectorized h0 h2, Frame.mem_getLocVectorized h0 h2]
    constructor
    · rintro ⟨h3, h4, t, ht, h5, h6⟩
      rw [List.mem_map] at ht
      obtain ⟨o, ho, rfl⟩ := ht
      rw [mem_intRange] at ho
      refine ⟨h3, h4, _, List.mem_map_of_mem ((mem_intRange _ _ _).2 ⟨ho.1, ?_⟩), h5, h6⟩
      have h7 := f.noticedEnd_le i
      have h8 := Frame.unitStart_le_iff (f := f) (i := i + 1) (j := s.last + 1)
      have h9 := (each.base.startOf_le_iff o (f.unitEnd s.last)).1 (by rw [Frame.unitEnd_eq] at h7 ⊢; omega)
      omega
    · rintro ⟨h3, h4, t, ht, h5, h6⟩
      rw [List.mem_map] at ht
      obtain ⟨o, ho, rfl⟩ := ht
      rw [mem_intRange] at ho
      exact ⟨h3, h4, _, List.mem_map_of_mem ((mem_intRange _ _ _).2 ⟨ho.1, by omega⟩), h5, h6⟩
  refine ⟨_, _, _, f.skipAfter s ⟨each.base.startOf (each.base.ordOf (f.unitStart s.first)), max (f.unitEnd s.last) (each.base.startOf last - nsSec), false,
      decide (each.base.startOf last < f.unitEnd s.last), (intRange (each.base.ordOf (f.unitStart s.first)) (last + 1)).map each.base.startOf⟩ (f.unitEnd s.last), ep, ?_, ?_⟩
  · rw [ez]
    simp only [hpts]
    rfl
  · intro hl
    have hl' : last = each.base.ordOf (f.unitEnd s.last) + 1 := by omega
    obtain ⟨o', ho'⟩ := hal last
    have hgt := (each.base.lt_startOf_iff last (f.unitEnd s.last)).2 (by omega)
    have hus : ∀ i, f.unitStart i = f.freq.base.startOf (f.o0 + i) := by
      intro i; unfold Frame.unitStart Frame.ord; rw [hfm]; congr 1; omega
    have hue : f.unitEnd s.last = f.freq.base.startOf (f.o0 + s.last + 1) - 1 := by
      rw [Frame.unitEnd_eq, hus]; congr 2; omega
    have hns := nsSec_pos
    unfold Frame.skipAfter
    simp only [Bool.false_eq_true, if_false, decide_eq_true_eq]
    rw [if_neg (show ¬ each.base.startOf last < f.unitEnd s.last by omega), ← hl']
    have hcase : o' = f.o0 + s.last + 1 ∨ f.o0 + s.last + 2 ≤ o' := by
      rw [ho', hue] at hgt
      have := (f.freq.base.startOf_le_startOf (f.o0 + s.last + 1) o').1 (by omega)
      omega
    rcases hcase with he | he
    · rw [ho', he, if_neg (by rw [hue]; omega), if_neg (by rw [hue]; omega)]
    · have hstep := f.freq.base.startOf_step (f.o0 + s.last + 1)
      have hmono := (f.freq.base.startOf_le_startOf (f.o0 + s.last + 1 + 1) o').2 (by omega)
      have hmx : max (f.unitEnd s.last) (each.base.startOf last - nsSec) = each.base.startOf last - nsSec := by rw [ho', hue]; omega
      rw [hmx, if_pos (by rw [ho', hue]; omega), if_pos (by rw [ho', hue]; omega)]
      have hstep2 := f.freq.base.startOf_step (o' - 1)
      rw [show o' - 1 + 1 = o' by omega] at hstep2
      have e1 : f.freq.base.ordOf (each.base.startOf last - nsSec) = o' - 1 := by
        rw [Base.ordOf_eq_iff, ho', show o' - 1 + 1 = o' by omega]; omega
      have e2 : f.freq.base.ordOf (each.base.startOf last - 1) = o' - 1 := by
        rw [Base.ordOf_eq_iff, ho', show o' - 1 + 1 = o' by omega]; omega
      unfold periodRange
      rw [e1, e2]

theorem monthStart_quarter (k : Int) : monthStart (k + 3) ≤ monthStart k + 92 := by
  have hq : ∃ q m, k = 12 * q + m ∧ 0 ≤ m ∧ m < 12 := ⟨k / 12, k % 12, by omega, by omega, by omega⟩
  obtain ⟨q, m, rfl, h0, h1⟩ := hq
  have e1 : (12 * q + m) / 12 = q := by omega
  have e2 : (12 * q + m) % 12 = m := by omega
  have hs := yearStart_succ (1970 + q)
  unfold monthStart
  rw [e1, e2]
  rcases Int.lt_or_le m 9 with h | h
  · rw [show (12 * q + m + 3) / 12 = q by omega, show (12 * q + m + 3) % 12 = m + 3 by omega]
    have : m = 0 ∨ m = 1 ∨ m = 2 ∨ m = 3 ∨ m = 4 ∨ m = 5 ∨ m = 6 ∨ m = 7 ∨ m = 8 := by omega
    rcases this with h | h | h | h | h | h | h | h | h <;> subst h <;> cases hl : isLeap (1970 + q) <;> simp [daysBefore, cumDays, hl] <;> omega
  · rw [show (12 * q + m + 3) / 12 = q + 1 by omega, show (12 * q + m + 3) % 12 = m - 9 by omega, show 1970 + (q + 1) = 1970 + q + 1 by omega, hs]
    have : m = 9 ∨ m = 10 ∨ m = 11 := by omega
    rcases this with h | h | h <;> subst h <;> cases hl : isLeap (1970 + q) <;> cases hl' : isLeap (1970 + q + 1) <;>
      simp [daysBefore, cumDays, hl, hl'] <;> omega

theorem monthStart_year (k : Int) : monthStart (k + 12) ≤ monthStart k + 366 := by
  have hq : ∃ q m, k = 12 * q + m ∧ 0 ≤ m ∧ m < 12 := ⟨k / 12, k % 12, by omega, by omega, by omega⟩
  obtain ⟨q, m, rfl, h0, h1⟩ := hq
  have hs := yearStart_succ (1970 + q)
  unfold monthStart
  rw [show (12 * q + m) / 12 = q by omega, show (12 * q + m) % 12 = m by omega, show (12 * q + m + 12) / 12 = q + 1 by omega,
    show (12 * q + m + 12) % 12 = m by omega, show 1970 + (q + 1) = 1970 + q + 1 by omega, hs]
  unfold daysBefore
  have hno : ¬ (isLeap (1970 + q) = true ∧ isLeap (1970 + q + 1) = true) := by
    rw [isLeap_iff, isLeap_iff]; omega
  cases hl : isLeap (1970 + q) <;> cases hl' : isLeap (1970 + q + 1) <;> simp [hl, hl'] at hno ⊢ <;> (try split) <;> omega

/-- Years ending with February, March, April, May or June. -/
def Base.ShortYear : Base → Prop
  | .A e => 1 ≤ e.val ∧ e.val ≤ 5
  | _ => False

instance : DecidablePred Base.ShortYear := fun b => by cases b <;> unfold Base.ShortYear <;> infer_instance

/-- `get_freq_delta` is the length of the longest period, except for those years. -/
theorem startOf_succ_le_delta {f : Freq} (hm : f.mult = 1) (h : ¬ f.base.ShortYear) (o : Int) :
    f.base.startOf (o + 1) ≤ f.base.startOf o + getFreqDelta f := by
  unfold getFreqDelta
  rw [hm]
  simp only [Int.natCast_one]
  generalize f.base = b at h
  cases b with
  | S => simp only [Base.startOf, nsSec]; omega
  | T => simp only [Base.startOf, nsMin]; omega
  | H => simp only [Base.startOf, nsHour]; omega
  | D => simp only [Base.startOf, nsDay]; omega
  | W e => simp only [Base.startOf, nsDay]; omega
  | M =>
    have e : Base.M.startOf (Base.M.ordOf (date 2016 7 1) + 1) - Base.M.startOf (Base.M.ordOf (date 2016 7 1)) = 31 * nsDay := by decide +kernel
    rw [e]
    have := monthStart_step o
    simp only [Base.startOf, nsDay]; omega
  | Q m =>
    have e : ∀ m : Fin 12, (Base.Q m).startOf ((Base.Q m).ordOf (date 2016 7 1) + 1) - (Base.Q m).startOf ((Base.Q m).ordOf (date 2016 7 1)) = 92 * nsDay := by
      decide +kernel
    rw [e]
    have := monthStart_quarter (3 * o + (((m : Nat) : Int) + 1) % 3)
    simp only [Base.startOf, nsDay]
    rw [show 3 * (o + 1) + (((m : Nat) : Int) + 1) % 3 = 3 * o + (((m : Nat) : Int) + 1) % 3 + 3 by omega]
    omega
  | A m =>
    have e : ∀ m : Fin 12, ¬ (Base.A m).ShortYear →
        (Base.A m).startOf ((Base.A m).ordOf (date 2016 7 1) + 1) - (Base.A m).startOf ((Base.A m).ordOf (date 2016 7 1)) = 366 * nsDay := by
      decide +kernel
    rw [e m h]
    have := monthStart_year (12 * o + (((m : Nat) : Int) + 1) % 12)
    simp only [Base.startOf, nsDay]
    rw [show 12 * (o + 1) + (((m : Nat) : Int) + 1) % 12 = 12 * o + (((m : Nat) : Int) + 1) % 12 + 12 by omega]
    omega

theorem ordOf_lt_delta {f : Freq} (hm : f.mult = 1) (h : ¬ f.base.ShortYear) (t : Time) :
    f.base.ordOf t < f.base.ordOf (t + getFreqDelta f) := by
  have h1 := startOf_succ_le_delta hm h (f.base.ordOf t)
  have h2 := f.base.startOf_le_self t
  have := (f.base.startOf_le_iff (f.base.ordOf t + 1) (t + getFreqDelta f)).1 (by omega)
  omega

end TB
