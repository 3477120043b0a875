import Verif.Lemmas.Dangles
import Verif.Props.Continue
/-! Property C79: the parts of calendar periods which fall outside a span. -/
namespace TB
open TB.Ex
variable {L : Type}

/-- **C79.** A calendar marker: `skip_left` of the first span leads back to the start of the period which contains the start of
the span, `skip_right` of the last span leads to the end of the period which contains the end of the span (periods of a multiplied
frequency are counted from the first one).  There is nothing to skip elsewhere. -/
theorem C79_calendar_dangles (f : Frame) (s : Span) (each : Freq) (hc : checkGroupbyFreq f.freq each = true)
    (h0 : 0 ≤ s.first) (h1 : s.first ≤ s.last) (h2 : s.last < f.n) :
    ∃ (ss : List Span) (x y : Int) (q : Period), f.partitionWithMarker s ⟨each, []⟩ = .ok ss ∧ Dangles x y ss ∧ 0 ≤ x ∧ 0 ≤ y ∧
      f.unitStart (s.first - x) = (Period.ofTime each (f.unitStart s.first)).startTime ∧
      q.freq = each ∧ (each.mult : Int) ∣ q.ord - (Period.ofTime each (f.unitStart s.first)).ord ∧
      q.startTime ≤ f.unitEnd s.last ∧ f.unitEnd s.last ≤ q.endTime ∧ f.unitEnd (s.last + y) = q.endTime := by
  have hab := Frame.unitStart_le_unitEnd' (f := f) h1
  obtain ⟨st, hst, hlu, hlb, hpts⟩ := Frame.stencil_calendar (f := f) (each := each) hab
  obtain ⟨ss', g1, _, g3, _⟩ := Frame.partition_calendar (s := s) hc h0 h1 h2
  obtain ⟨ss, g4, g5⟩ := Frame.partitionWithMarker_dangles (m := ⟨each, []⟩) hc h0 h1 h2 hst
  rw [g1] at g4; cases g4
  have hm := each.mult_pos
  have hfm := f.freq.mult_pos
  have ho := each.base.ordOf_mono hab
  have eord : ∀ i, f.freq.base.ordOf (f.unitStart i) = f.ord i := by intro i; unfold Frame.unitStart; rw [Base.ordOf_startOf]
  -- the left dangle
  have hx : f.skipBefore s st (f.unitStart s.first) = f.freq.base.ordOf (f.unitStart s.first) -
        f.freq.base.ordOf (each.base.startOf (each.base.ordOf (f.unitStart s.first))) := by
    cases ss' with
    | nil => exact absurd g5.1 (by simp)
    | cons z zs =>
      have e1 : z.skipLeft = _ := g3.1
      have e2 := g5.1
      simp only [List.map_cons, List.cons.injEq] at e2
      rw [← e2.1, e1]
  -- the last period
  have hnew : Frame.new each (f.unitStart s.first) (f.unitEnd s.last) = .ok ⟨each, each.base.ordOf (f.unitStart s.first),
      ((each.base.ordOf (f.unitEnd s.last) - each.base.ordOf (f.unitStart s.first)) / (each.mult : Int) + 1).toNat⟩ :=
    Frame.new_ok_iff.2 ⟨ho, rfl⟩
  have hst' := hst
  unfold Frame.stencilFor at hst'
  simp only [List.isEmpty_nil, if_true, hnew, Bind.bind, Except.bind, pure, Except.pure, Except.ok.injEq, Option.some.injEq] at hst'
  have hq0 : 0 ≤ (each.base.ordOf (f.unitEnd s.last) - each.base.ordOf (f.unitStart s.first)) / (each.mult : Int) :=
    Int.ediv_nonneg (by omega) (by omega)
  have hdm := Int.mul_ediv_add_emod (each.base.ordOf (f.unitEnd s.last) - each.base.ordOf (f.unitStart s.first)) (each.mult : Int)
  have hmod := Int.emod_lt_of_pos (each.base.ordOf (f.unitEnd s.last) - each.base.ordOf (f.unitStart s.first)) (show 0 < (each.mult : Int) by omega)
  have hmod0 := Int.emod_nonneg (each.base.ordOf (f.unitEnd s.last) - each.base.ordOf (f.unitStart s.first)) (show (each.mult : Int) ≠ 0 by omega)
  generalize hk : (each.base.ordOf (f.unitEnd s.last) - each.base.ordOf (f.unitStart s.first)) / (each.mult : Int) = k at *
  generalize hP : (each.mult : Int) * k = P at *
  have hrb : st.rightBound = each.base.startOf (each.base.ordOf (f.unitStart s.first) + P + each.mult) - 1 := by
    rw [← hst']
    simp only [Frame.endTime]
    rw [Frame.unitEnd_eq]
    unfold Frame.unitStart Frame.ord
    simp only
    rw [show (((k + 1).toNat : Int) - 1 + 1) = k + 1 by omega, Int.mul_add, hP]
    congr 2
    omega
  have hru : st.rightUndefined = false := by rw [← hst']
  have hge : f.unitEnd s.last ≤ st.rightBound := by
    have := (each.base.lt_startOf_iff (each.base.ordOf (f.unitStart s.first) + P + each.mult) (f.unitEnd s.last)).2 (by omega)
    omega
  -- starts of periods are starts of units
  have hal : ∃ i, each.base.startOf (each.base.ordOf (f.unitStart s.first) + P + each.mult) = f.unitStart i := by
    rcases checkGroupby_aligned hc with ⟨ha, hb⟩ | ⟨ha, c, hb⟩
    · obtain ⟨o', ho'⟩ := hb (each.base.ordOf (f.unitStart s.first) + P + each.mult)
      refine ⟨o' - f.o0, ?_⟩
      rw [ho']
      unfold Frame.unitStart Frame.ord
      rw [ha]
      congr 1
      omega
    · refine ⟨s.first + c * (k + 1), ?_⟩
      rw [← ha, eord, ← hP]
      unfold Frame.unitStart
      congr 1
      unfold Frame.ord
      rw [hb]
      simp only [Int.natCast_mul, Int.mul_add, Int.mul_one, Int.mul_assoc]
      omega
  obtain ⟨i, hi⟩ := hal
  have hil : s.last < i := by
    rw [hrb, hi, Frame.unitEnd_eq] at hge
    have := Frame.unitStart_le_iff (f := f) (i := s.last + 1) (j := i)
    omega
  have hro : f.freq.base.ordOf st.rightBound = f.ord i - 1 := by
    rw [hrb, hi]
    unfold Frame.unitStart
    have := f.freq.base.startOf_step (f.ord i - 1)
    rw [show f.ord i - 1 + 1 = f.ord i by omega] at this
    have hns := nsSec_pos
    rw [Base.ordOf_eq_iff, show f.ord i - 1 + 1 = f.ord i by omega]
    omega
  have hy := Frame.skipAfter_unit (by omega) h2 hru hil hge hro
  refine ⟨ss', _, _, ⟨each, each.base.ordOf (f.unitStart s.first) + P⟩, g1, g5, ?_, by omega, ?_, rfl, ?_, ?_, ?_, ?_⟩
  · rw [hx]
    have := each.base.startOf_le_self (f.unitStart s.first)
    have := f.freq.base.ordOf_mono this
    omega
  · rw [hx]
    unfold Period.startTime Period.ofTime
    simp only
    rcases checkGroupby_aligned hc with ⟨ha, hb⟩ | ⟨ha, _⟩
    · obtain ⟨o', ho'⟩ := hb (each.base.ordOf (f.unitStart s.first))
      rw [eord, ho', Base.ordOf_startOf]
      unfold Frame.unitStart Frame.ord
      rw [ha]
      congr 1
      omega
    · rw [← ha, eord]
      have : f.freq.base.startOf (f.ord s.first) = f.unitStart s.first := rfl
      rw [this, eord, Int.sub_self, Int.sub_zero]
  · refine ⟨k, ?_⟩
    rw [hP]
    unfold Period.ofTime
    simp only
    omega
  · unfold Period.startTime
    exact (each.base.startOf_le_iff _ _).2 (by simp only; omega)
  · unfold Period.endTime
    simp only
    omega
  · rw [hy, Frame.unitEnd_eq, show s.last + (i - s.last - 1) + 1 = i by omega, ← hi]
    rfl

/-- January 2017 cut in weeks (the example in the documentation of the code): 6 days are missing on the left, 5 on the right. -/
example : checkGroupbyFreq fD fW = true ∧ (Frame.new fD (date 2017 1 1) (date 2017 1 31)).bind (fun f => f.partitionWithMarker ⟨0, 30, 0, 0⟩ ⟨fW, []⟩) =
      .ok [⟨0, 0, 6, 0⟩, ⟨1, 7, 0, 0⟩, ⟨8, 14, 0, 0⟩, ⟨15, 21, 0, 0⟩, ⟨22, 28, 0, 0⟩, ⟨29, 30, 0, 5⟩] := by decide +kernel

/-- **C79.** A marker with `at`: `skip_left` leads back to the latest mark at or before the start of the span, `skip_right` leads to
the earliest mark after the span; they are -1 if there is no such mark in the periods looked at. -/
theorem C79_marked_dangles (f : Frame) (s : Span) (m : Marker) (hr : m.Regular f.freq) (hc : checkGroupbyFreq f.freq m.each = true)
    (h0 : 0 ≤ s.first) (h1 : s.first ≤ s.last) (h2 : s.last < f.n) :
    ∃ ss x y, f.partitionWithMarker s m = .ok ss ∧ Dangles x y ss ∧
      ((x = -1 ∧ ∀ u, m.Mark f.freq u → u ≤ f.unitStart s.first → u < (Period.ofTime m.each (f.unitStart s.first - getFreqDelta m.each)).startTime) ∨
       (0 ≤ x ∧ m.Latest f.freq (f.unitStart s.first) (f.unitStart (s.first - x)) ∧
        (Period.ofTime m.each (f.unitStart s.first - getFreqDelta m.each)).startTime ≤ f.unitStart (s.first - x))) ∧
      ((y = -1 ∧ ∀ u, m.Mark f.freq u → f.unitEnd s.last < u → (Period.ofTime m.each (f.unitEnd s.last + getFreqDelta m.each)).endTime < u) ∨
       (0 ≤ y ∧ m.Earliest f.freq (f.unitEnd s.last) (f.unitStart (s.last + y + 1)) ∧
        f.unitStart (s.last + y + 1) ≤ (Period.ofTime m.each (f.unitEnd s.last + getFreqDelta m.each)).endTime)) := by
  obtain ⟨ss, x, g1, g2, g3, g4, g5⟩ := Frame.partition_regular hr hc h0 h1 h2
  have hr0 := hr
  obtain ⟨hm, hne, heach, hwit⟩ := hr
  obtain ⟨hfm, hal⟩ := checkGroupby_unit hc hm
  have hab := Frame.unitStart_le_unitEnd' (f := f) h1
  have hab' : f.unitStart s.first < f.unitEnd s.last := by
    have := f.unitStart_add_sec s.first
    have := Frame.unitStart_le_iff (f := f) (i := s.first + 1) (j := s.last + 1)
    have : (1 : Int) < nsSec := by decide
    rw [Frame.unitEnd_eq]
    omega
  obtain ⟨pi, hpi, hpf, hp0, hpl, hpr, hpn', hps, hpe⟩ := stencil_envelope hm hab
  have hpn : 0 < pi.n := Frame.new_valid hpi
  obtain ⟨cand, hcand, hmem⟩ := collectAts_regular hpf hpn heach
  have hats : m.ats.isEmpty = false := by
    cases h : m.ats with
    | nil => exact absurd h hne
    | cons g gs => rfl
  have hordt : ∀ {u}, m.Mark f.freq u → (u ∈ cand ↔ pi.o0 ≤ m.each.base.ordOf u ∧ m.each.base.ordOf u < pi.o0 + pi.n) := by
    rintro u ⟨o, g, hg, hu⟩
    obtain ⟨w1, w2, _⟩ := hwit g hg o u hu
    have e : m.each.base.ordOf u = o := (Base.ordOf_eq_iff _ _ _).2 ⟨w1, w2⟩
    rw [hmem, e]
    constructor
    · rintro ⟨g', hg', o', k1, k2, k3⟩
      obtain ⟨v1, v2, _⟩ := hwit g' hg' o' u k3
      have e' : m.each.base.ordOf u = o' := (Base.ordOf_eq_iff _ _ _).2 ⟨v1, v2⟩
      omega
    · rintro ⟨k1, k2⟩
      exact ⟨g, hg, o, k1, k2, hu⟩
  have hcm : ∀ {u}, u ∈ cand → m.Mark f.freq u := by
    intro u hu
    obtain ⟨g, hg, o, _, _, k⟩ := (hmem u).1 hu
    exact ⟨o, g, hg, k⟩
  have hend : ∀ u, (Period.ofTime m.each (f.unitEnd s.last + getFreqDelta m.each)).endTime < u ↔ pi.o0 + pi.n ≤ m.each.base.ordOf u := by
    intro u
    unfold Period.endTime Period.ofTime
    simp only
    rw [hm, hpn']
    have := m.each.base.startOf_le_iff (m.each.base.ordOf (f.unitEnd s.last + getFreqDelta m.each) + 1) u
    simp only [Int.natCast_one]
    omega
  -- the right dangle
  have hright : ∃ y, (∀ x' y', Dangles x' y' ss → y' = y) ∧
      ((y = -1 ∧ ∀ u, m.Mark f.freq u → f.unitEnd s.last < u → (Period.ofTime m.each (f.unitEnd s.last + getFreqDelta m.each)).endTime < u) ∨
       (0 ≤ y ∧ m.Earliest f.freq (f.unitEnd s.last) (f.unitStart (s.last + y + 1)) ∧
        f.unitStart (s.last + y + 1) ≤ (Period.ofTime m.each (f.unitEnd s.last + getFreqDelta m.each)).endTime)) ∧ ∃ x', Dangles x' y ss := by
    have huniq : ∀ {y}, (∃ x', Dangles x' y ss) → ∀ x' y', Dangles x' y' ss → y' = y := by
      rintro y ⟨x1, _, d1⟩ x' y' ⟨_, d2⟩
      rw [d1] at d2
      have := List.append_cancel_left d2
      simpa using this.symm
    have hund : (∀ u ∈ cand, u < f.unitEnd s.last) → ∀ u, m.Mark f.freq u → f.unitEnd s.last < u →
        (Period.ofTime m.each (f.unitEnd s.last + getFreqDelta m.each)).endTime < u := by
      intro hno u hu hlt
      rw [hend]
      have hmo := m.each.base.ordOf_mono (show f.unitStart s.first ≤ u by omega)
      rcases Int.lt_or_le (m.each.base.ordOf u) (pi.o0 + pi.n) with h | h
      · have := hno u ((hordt hu).2 ⟨by omega, h⟩)
        omega
      · exact h
    by_cases hemp : sliceAtPoints (sortList cand) (f.unitStart s.first) (f.unitEnd s.last) = []
    · have hstn : f.stencilFor m (f.unitStart s.first) (f.unitEnd s.last) = .ok none := by
        unfold Frame.stencilFor
        simp only [hats, Bool.false_eq_true, if_false, hpi, hcand, Bind.bind, Except.bind, hemp]
        rfl
      have := Frame.partitionWithMarker_none hc h0 h1 h2 hstn
      rw [g1] at this
      cases this
      have hd : Dangles (-1) (-1) [{ first := s.first, last := s.last, skipLeft := -1, skipRight := -1 }] := ⟨rfl, rfl⟩
      refine ⟨-1, huniq ⟨_, hd⟩, .inl ⟨rfl, hund ?_⟩, ⟨-1, hd⟩⟩
      intro u hu
      rcases Int.lt_or_le u (f.unitEnd s.last) with h | h
      · exact h
      · obtain ⟨z, e1, _⟩ := sliceAtPoints_last (a := f.unitStart s.first) (pairwise_sortList cand) hab' ⟨u, (mem_sortList _ _).2 hu, h⟩
        rw [hemp] at e1; cases e1
    · obtain ⟨a0, ha0⟩ : ∃ a0, (sliceAtPoints (sortList cand) (f.unitStart s.first) (f.unitEnd s.last)).head? = some a0 :=
        ⟨_, List.head?_eq_some_head hemp⟩
      obtain ⟨a1, ha1⟩ : ∃ a0, (sliceAtPoints (sortList cand) (f.unitStart s.first) (f.unitEnd s.last)).getLast? = some a0 :=
        ⟨_, List.getLast?_eq_some_getLast hemp⟩
      have hstn : ∃ st, f.stencilFor m (f.unitStart s.first) (f.unitEnd s.last) = .ok (some st) ∧
          st.rightUndefined = decide (a1 < f.unitEnd s.last) ∧ st.rightBound = max (f.unitEnd s.last) (a1 - nsSec) := by
        unfold Frame.stencilFor
        simp only [hats, Bool.false_eq_true, if_false, hpi, hcand, Bind.bind, Except.bind, ha0, ha1]
        exact ⟨_, rfl, rfl, rfl⟩
      obtain ⟨st, hst1, hst2, hst3⟩ := hstn
      obtain ⟨ss', k1, k2⟩ := Frame.partitionWithMarker_dangles (m := m) hc h0 h1 h2 hst1
      rw [g1] at k1; cases k1
      refine ⟨_, huniq ⟨_, k2⟩, ?_, ⟨_, k2⟩⟩
      by_cases hex : ∃ u ∈ cand, f.unitEnd s.last ≤ u
      · obtain ⟨u, hu, hle⟩ := hex
        obtain ⟨z, e1, e2, e3, e4⟩ := sliceAtPoints_last (a := f.unitStart s.first) (pairwise_sortList cand) hab' ⟨u, (mem_sortList _ _).2 hu, hle⟩
        rw [ha1] at e1; cases e1
        have hac := (mem_sortList _ _).1 e2
        have hmk := hcm hac
        have hun := hr0.mark_unit hfm hmk
        generalize hj : f.freq.base.ordOf a1 - f.o0 = j at hun
        have hsec := f.unitStart_add_sec s.last
        have hlj : s.last < j := by
          rw [hun, Frame.unitEnd_eq] at e3
          have a1 := Frame.unitStart_le_iff (f := f) (i := s.last + 1) (j := j)
          have a2 := Frame.unitStart_le_iff (f := f) (i := j) (j := s.last)
          have : (1 : Int) < nsSec := by decide
          omega
        have hgt : f.unitEnd s.last < a1 := by
          rw [hun, Frame.unitEnd_eq]
          have := Frame.unitStart_le_iff (f := f) (i := s.last + 1) (j := j)
          omega
        have hstep := f.freq.base.startOf_step (f.ord j - 1)
        rw [show f.ord j - 1 + 1 = f.ord j by omega] at hstep
        have hns := nsSec_pos
        have huj : f.unitStart j = f.freq.base.startOf (f.ord j) := rfl
        have hoj : f.ord j = f.o0 + j := by simp [Frame.ord, hfm]
        have hro : f.freq.base.ordOf st.rightBound = f.ord j - 1 := by
          rw [Base.ordOf_eq_iff, show f.ord j - 1 + 1 = f.ord j by omega, hst3, ← huj, ← hun]
          rw [← huj, ← hun] at hstep
          constructor
          · omega
          · omega
        have hy := Frame.skipAfter_unit (st := st) (by omega) h2 (by rw [hst2, decide_eq_false_iff_not]; omega) hlj (by rw [hst3]; omega) hro
        rw [hy]
        refine .inr ⟨by omega, ?_, ?_⟩
        · rw [show s.last + (j - s.last - 1) + 1 = j by omega, ← hun]
          refine ⟨hmk, hgt, ?_⟩
          intro u' hu' hlt'
          rcases Int.lt_or_le (m.each.base.ordOf u') (pi.o0 + pi.n) with h | h
          · have hmo := m.each.base.ordOf_mono (show f.unitStart s.first ≤ u' by omega)
            exact e4 u' ((mem_sortList _ _).2 ((hordt hu').2 ⟨by omega, h⟩)) (by omega)
          · have h3 := ((hordt hmk).1 hac).2
            rcases Int.lt_or_le u' a1 with h4 | h4
            · have := m.each.base.ordOf_mono (show u' ≤ a1 by omega)
              omega
            · exact h4
        · rw [show s.last + (j - s.last - 1) + 1 = j by omega, ← hun]
          have h3 := ((hordt hmk).1 hac).2
          have := hend a1
          omega
      · have hall : ∀ u ∈ cand, u < f.unitEnd s.last := by
          intro u hu
          rcases Int.lt_or_le u (f.unitEnd s.last) with h | h
          · exact h
          · exact absurd ⟨u, hu, h⟩ hex
        have ha1c : a1 ∈ cand := (mem_sortList _ _).1 (sliceAtPoints_sub (List.mem_of_getLast? ha1))
        have hlt := hall a1 ha1c
        have : f.skipAfter s st (f.unitEnd s.last) = -1 := by
          unfold Frame.skipAfter; rw [hst2, if_pos (by simp only [decide_eq_true_eq]; omega)]
        rw [this]
        exact .inl ⟨rfl, hund hall⟩
  obtain ⟨y, _, hy, x', hd⟩ := hright
  have hxx : x' = x := by
    cases ss with
    | nil => exact absurd hd.1 (by simp)
    | cons z zs =>
      have e1 : z.skipLeft = _ := g4.1
      have e2 := hd.1
      simp only [List.map_cons, List.cons.injEq] at e2
      rw [← e2.1, e1]
  subst hxx
  refine ⟨ss, x', y, g1, hd, ?_, hy⟩
  have hst : ∀ u, u < (Period.ofTime m.each (f.unitStart s.first - getFreqDelta m.each)).startTime ↔
      m.each.base.ordOf u < m.each.base.ordOf (f.unitStart s.first - getFreqDelta m.each) := by
    intro u
    unfold Period.ofTime Period.startTime
    exact m.each.base.lt_startOf_iff _ _
  rcases g5 with ⟨k1, k2⟩ | ⟨u, u1, u2, u3, u4, u5⟩
  · refine .inl ⟨k1, fun u hu hle => (hst u).2 (k2 u hu hle)⟩
  · have e := hr0.mark_unit hfm u1
    have e2 : f.freq.base.ordOf (f.unitStart s.first) = f.o0 + s.first := by
      unfold Frame.unitStart; rw [Base.ordOf_startOf]; simp [Frame.ord, hfm]
    have hx0 := f.freq.base.ordOf_mono u2
    rw [show f.freq.base.ordOf u - f.o0 = s.first - x' by omega] at e
    rw [← e]
    have := hst u
    exact .inr ⟨by omega, ⟨u1, u2, u4⟩, by omega⟩

/-- Quarters of the fiscal year from the 10th day of the month: 61 days are missing on the left, 45 on the right. -/
example : (offsetMarker fQ [{ days := 9 }]).Regular fD ∧ (Frame.new fD (date 2017 3 12) (date 2017 5 25)).bind (fun f =>
      f.partitionWithMarker ⟨0, 74, 0, 0⟩ (offsetMarker fQ [{ days := 9 }])) = .ok [⟨0, 28, 61, 0⟩, ⟨29, 74, 0, 45⟩] :=
  ⟨(C75_offset_marks (by decide) (by decide) (by simp) (by decide +kernel)).1, by decide +kernel⟩

end TB
