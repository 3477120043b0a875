import Verif.Spec.Frequencies
import Verif.Lemmas.Marks
import Verif.Lemmas.MarkerZero
/-! Which frequencies can be used for markers (C47, continued) and how far a marker looks around the span (C79, continued). -/
namespace TB

/-- All denominations. -/
def allDenoms : List Denom :=
  [.S, .T, .H, .D, .M, .min] ++ (none :: (List.finRange 7).map some).map .W ++ (none :: (List.finRange 12).map some).map .Q ++
    (none :: (List.finRange 12).map some).map .A ++ (none :: (List.finRange 12).map some).map .Y

theorem mem_allDenoms (d : Denom) : d ∈ allDenoms := by
  have h7 : ∀ s : Fin 7, Denom.W (some s) ∈ allDenoms := by decide +kernel
  have h12 : ∀ s : Fin 12, Denom.Q (some s) ∈ allDenoms ∧ Denom.A (some s) ∈ allDenoms ∧ Denom.Y (some s) ∈ allDenoms := by decide +kernel
  cases d with
  | W s => cases s with
    | none => decide +kernel
    | some s => exact h7 s
  | Q s => cases s with
    | none => decide +kernel
    | some s => exact (h12 s).1
  | A s => cases s with
    | none => decide +kernel
    | some s => exact (h12 s).2.1
  | Y s => cases s with
    | none => decide +kernel
    | some s => exact (h12 s).2.2
  | min => decide +kernel
  | S => decide +kernel
  | T => decide +kernel
  | H => decide +kernel
  | D => decide +kernel
  | M => decide +kernel

theorem Denom.Divides.snap {bu gb : Denom} (h : bu.Divides gb) (o : Int) :
    bu.base.startOf (bu.base.ordOf (gb.base.startOf o)) = gb.base.startOf o := by
  obtain ⟨o', h'⟩ := h o
  rw [h', Base.ordOf_startOf]

instance : DecidablePred Denom.Alias := fun d => by cases d <;> unfold Denom.Alias <;> infer_instance

theorem refused_not_divides : ∀ bu ∈ allDenoms, ∀ gb ∈ allDenoms, ¬ bu.Alias → ¬ gb.Alias → bu.kind ≠ gb.kind → isSubperiod bu.freq gb.freq = false →
    ∃ o ∈ ([0, 1, 2, 3] : List Int), bu.base.startOf (bu.base.ordOf (gb.base.startOf o)) ≠ gb.base.startOf o := by
  decide +kernel

theorem same_kind_accepted : ∀ bu ∈ allDenoms, ∀ gb ∈ allDenoms, ¬ bu.Alias → ¬ gb.Alias → bu.kind = gb.kind →
    (isSubperiod bu.freq gb.freq = true ↔ bu = gb ∧ gb.kind < 5) := by
  decide +kernel

theorem capital_of_not_alias {d : Denom} (h : ¬ d.Alias) : d.capital = true := by
  cases d <;> first | rfl | exact absurd trivial h

/-- **C47.** Exactly which frequencies of markers are accepted, other than those named 'min' and 'Y'.  Written without factors and of different kinds: those whose
periods consist of whole base units, wherever they are on the calendar.  Of the same kind: only the same denomination, for weeks and shorter periods.
Multiplied base units: multiples of the same denomination.  A multiplied frequency with simple base units: what is accepted
without the factor, and also the same denomination.  The factor 1 is never accepted with simple base units. -/
theorem C47_exactly_which (bu gb : Denom) (hbu : ¬ bu.Alias) (hgb : ¬ gb.Alias) :
    (bu.kind ≠ gb.kind → (checkGroupbyFreq bu.freq gb.freq = true ↔ bu.Divides gb)) ∧
    (bu.kind = gb.kind → (checkGroupbyFreq bu.freq gb.freq = true ↔ bu = gb ∧ gb.kind < 5)) ∧
    (∀ (n : Nat) (hn : n ≠ 1) (hn0 : some n ≠ some 0) (g : Option Nat) (hg : g ≠ some 0),
      checkGroupbyFreq ⟨some n, bu, hn0⟩ ⟨g, gb, hg⟩ = true ↔ bu = gb ∧ n ∣ g.getD 1) ∧
    (∀ (n : Nat) (hn : n ≠ 1) (hn0 : some n ≠ some 0) (b : Option Nat) (hb : b ≠ some 0), b.getD 1 = 1 →
      (checkGroupbyFreq ⟨b, bu, hb⟩ ⟨some n, gb, hn0⟩ = true ↔ bu = gb ∨ checkGroupbyFreq bu.freq gb.freq = true)) ∧
    checkGroupbyFreq bu.freq ⟨some 1, gb, by simp⟩ = false ∧
    checkGroupbyFreq ⟨some 1, bu, by simp⟩ gb.freq = false ∧
    checkGroupbyFreq ⟨some 1, bu, by simp⟩ ⟨some 1, gb, by simp⟩ = false := by
  have cb := capital_of_not_alias hbu
  have cg := capital_of_not_alias hgb
  have hsub : checkGroupbyFreq bu.freq gb.freq = isSubperiod bu.freq gb.freq := by
    unfold checkGroupbyFreq
    simp [Freq.mult, Denom.freq, cb, cg]
  refine ⟨fun hk => ⟨fun h => ?_, fun h => ?_⟩, fun hk => ?_, ?_, ?_, ?_, ?_, ?_⟩
  · rw [hsub] at h
    exact (isSubperiod_aligned h).2.2
  · rw [hsub]
    cases hs : isSubperiod bu.freq gb.freq with
    | true => rfl
    | false =>
      obtain ⟨o, _, ho⟩ := refused_not_divides bu (mem_allDenoms bu) gb (mem_allDenoms gb) hbu hgb hk hs
      exact absurd (h.snap o) ho
  · rw [hsub]
    exact same_kind_accepted bu (mem_allDenoms bu) gb (mem_allDenoms gb) hbu hgb hk
  · intro n hn hn0 g hg
    unfold checkGroupbyFreq
    simp only [isSubperiod, Option.isSome_some, Bool.true_or, if_true, Freq.mult, Option.getD_some]
    by_cases hd : bu = gb
    · simp [hd, hn, Nat.dvd_iff_mod_eq_zero, cg]
    · simp [hd, hn, cb, cg]
  · intro n hn hn0 b hb hb1
    rw [hsub]
    unfold checkGroupbyFreq
    simp only [isSubperiod, Option.isSome_some, Bool.or_true, if_true, Freq.mult, Option.getD_some, hb1]
    by_cases hd : bu = gb
    · simp [hd, hn, Nat.mod_one, cg]
    · simp [hd, hn, cb, cg]
  · unfold checkGroupbyFreq
    simp [isSubperiod, Freq.mult, Denom.freq, cb, cg]
  · unfold checkGroupbyFreq
    simp [isSubperiod, Freq.mult, Denom.freq, cb, cg]
  · unfold checkGroupbyFreq
    simp [isSubperiod, Freq.mult, cb, cg]

/-- **C47**, other names: 'min' is never accepted, neither for base units nor for markers, although 'T' is; 'Y' is only accepted with base units
of the same name, if one of the two is multiplied, although 'A' is also accepted with shorter base units. -/
theorem C47_aliases (bu gb : Freq) (h : bu.denom.Alias ∨ gb.denom.Alias) :
    checkGroupbyFreq bu gb = true ↔ bu.denom = gb.denom ∧ bu.denom ≠ .min ∧ ¬ (bu.mult = 1 ∧ gb.mult = 1) ∧ bu.mult ∣ gb.mult := by
  have hs : ∀ x y : Freq, (x.denom.Alias ∨ y.denom.Alias) → isSubperiod x y = false := by
    intro x y hxy
    unfold isSubperiod
    split
    · rfl
    · cases hx : x.denom <;> cases hy : y.denom <;> rw [hx, hy] at hxy <;> simp [Denom.Alias] at hxy ⊢
  have hc : ∀ d : Denom, d.capital = decide (d ≠ .min) := by intro d; cases d <;> rfl
  unfold checkGroupbyFreq
  rw [hs bu gb h, hs bu.denom.freq gb.denom.freq h, hc, hc]
  simp only [Bool.false_eq_true, if_false, Nat.dvd_iff_mod_eq_zero]
  by_cases h1 : bu.denom = gb.denom
  · by_cases h2 : bu.denom = .min
    · simp [h2]
    · have h3 : gb.denom ≠ .min := by rw [← h1]; exact h2
      by_cases h4 : bu.mult = 1 ∧ gb.mult = 1
      · simp [h1, h3, h4.1, h4.2]
      · have : (bu.mult == 1 && gb.mult == 1) = false := by
          rw [Bool.eq_false_iff]; intro hh; simp only [Bool.and_eq_true, beq_iff_eq] at hh; exact h4 hh
        simp [h1, h3, h4, this]
  · simp [h1]

/-- Minutes and years by other names. -/
example : checkGroupbyFreq Denom.min.freq Denom.D.freq = false ∧ checkGroupbyFreq Denom.T.freq Denom.D.freq = true ∧
    checkGroupbyFreq Denom.D.freq (Denom.Y none).freq = false ∧ checkGroupbyFreq Denom.D.freq (Denom.A none).freq = true ∧
    checkGroupbyFreq (Denom.Y none).freq ⟨some 2, .Y none, by simp⟩ = true ∧ checkGroupbyFreq Denom.min.freq ⟨some 2, .min, by simp⟩ = false := by decide +kernel

/-- Days make up months; weeks do not; quarters ending with March, June, … make up calendar years. -/
example : Denom.kind .D ≠ Denom.kind .M ∧ checkGroupbyFreq Denom.D.freq Denom.M.freq = true ∧
    Denom.kind (.W none) ≠ Denom.kind .M ∧ checkGroupbyFreq (Denom.W none).freq Denom.M.freq = false ∧
    checkGroupbyFreq (Denom.Q (some 2)).freq (Denom.A none).freq = true ∧
    checkGroupbyFreq Denom.M.freq Denom.M.freq = false ∧ checkGroupbyFreq (Denom.W none).freq (Denom.W (some 6)).freq = false := by decide +kernel

/-- Two periods in a row are never shorter than the distance of the look-around. -/
theorem delta_le_two {f : Freq} (hm : f.mult = 1) (o : Int) :
    f.base.startOf o + getFreqDelta f ≤ f.base.startOf (o + 2) := by
  unfold getFreqDelta
  rw [hm]
  simp only [Int.natCast_one]
  generalize f.base = b
  cases b with
  | S => simp only [Base.startOf, nsSec]; omega
  | T => simp only [Base.startOf, nsMin]; omega
  | H => simp only [Base.startOf, nsHour]; omega
  | D => simp only [Base.startOf, nsDay]; omega
  | W e => simp only [Base.startOf, nsDay]; omega
  | M =>
    have e : Base.M.startOf (Base.M.ordOf (date 2016 7 1) + 1) - Base.M.startOf (Base.M.ordOf (date 2016 7 1)) = 31 * nsDay := by decide +kernel
    rw [e]
    have h1 := (monthStart_step o).1
    have h2 := (monthStart_step (o + 1)).1
    rw [show o + 1 + 1 = o + 2 by omega] at h2
    simp only [Base.startOf, nsDay]; omega
  | Q m =>
    have e : ∀ m : Fin 12, (Base.Q m).startOf ((Base.Q m).ordOf (date 2016 7 1) + 1) - (Base.Q m).startOf ((Base.Q m).ordOf (date 2016 7 1)) = 92 * nsDay := by
      decide +kernel
    rw [e]
    simp only [Base.startOf, nsDay]
    generalize hk : 3 * o + (((m : Nat) : Int) + 1) % 3 = k
    rw [show 3 * (o + 2) + (((m : Nat) : Int) + 1) % 3 = k + 6 by omega]
    have h1 := (monthStart_step k).1
    have h2 := (monthStart_step (k + 1)).1
    have h3 := (monthStart_step (k + 1 + 1)).1
    have h4 := (monthStart_step (k + 1 + 1 + 1)).1
    have h5 : monthStart (k + 1 + 1 + 1 + 1) ≤ monthStart (k + 6) := monthStart_le (by omega)
    omega
  | A m =>
    have e : ∀ m : Fin 12, (Base.A m).startOf ((Base.A m).ordOf (date 2016 7 1) + 1) - (Base.A m).startOf ((Base.A m).ordOf (date 2016 7 1)) ≤ 366 * nsDay := by
      decide +kernel
    have e := e m
    have h1 : monthStart (12 * o + (((m : Nat) : Int) + 1) % 12) + 14 * 28 ≤ monthStart (12 * (o + 2) + (((m : Nat) : Int) + 1) % 12) := by
      generalize hk : 12 * o + (((m : Nat) : Int) + 1) % 12 = k
      rw [show 12 * (o + 2) + (((m : Nat) : Int) + 1) % 12 = k + 24 by omega]
      have hn : ∀ n : Nat, monthStart k + 28 * n ≤ monthStart (k + n) := by
        intro n
        induction n with
        | zero => simp
        | succ n ih =>
          have := (monthStart_step (k + n)).1
          rw [show k + ((n + 1 : Nat) : Int) = k + n + 1 by omega]
          omega
      have := hn 24
      rw [show k + ((24 : Nat) : Int) = k + 24 by omega] at this
      omega
    generalize (Base.A m).startOf ((Base.A m).ordOf (date 2016 7 1) + 1) - (Base.A m).startOf ((Base.A m).ordOf (date 2016 7 1)) = d at e ⊢
    simp only [Base.startOf, nsDay] at e ⊢
    omega

/-- **C79.** How far a marker with `at` looks around the span for marks, in periods of the marker: back from the start of the span
to the start of the previous period or of the one before that, ahead from the end of the span to the end of the next period or of
the one after that.  With years ending from February to June it may happen that only the periods of the span itself are
looked at. -/
theorem C79_periods_looked_at (f : Freq) (hm : f.mult = 1) (t : Time) :
    let back := Period.ofTime f (t - getFreqDelta f)
    let here := Period.ofTime f t
    let ahead := Period.ofTime f (t + getFreqDelta f)
    here.ord - 2 ≤ back.ord ∧ ahead.ord ≤ here.ord + 2 ∧
      (¬ f.base.ShortYear → back.ord ≤ here.ord - 1 ∧ here.ord + 1 ≤ ahead.ord) := by
  simp only [Period.ofTime]
  have s1 := f.base.startOf_le_self t
  refine ⟨?_, ?_, fun h => ⟨?_, ?_⟩⟩
  · have h1 := delta_le_two hm (f.base.ordOf t - 2)
    rw [show f.base.ordOf t - 2 + 2 = f.base.ordOf t by omega] at h1
    exact (f.base.startOf_le_iff _ _).1 (by omega)
  · have h1 := delta_le_two hm (f.base.ordOf t + 1)
    have h2 : ¬ f.base.startOf (f.base.ordOf t + 1) ≤ t := fun hx => by
      have := (f.base.startOf_le_iff _ _).1 hx
      omega
    rw [show f.base.ordOf t + 1 + 2 = f.base.ordOf t + 3 by omega] at h1
    have h3 : ¬ f.base.startOf (f.base.ordOf t + 3) ≤ t + getFreqDelta f := by omega
    have h4 : ¬ f.base.ordOf t + 3 ≤ f.base.ordOf (t + getFreqDelta f) := fun hx => h3 ((f.base.startOf_le_iff _ _).2 hx)
    omega
  · have := ordOf_lt_delta hm h (t - getFreqDelta f)
    rw [show t - getFreqDelta f + getFreqDelta f = t by omega] at this
    omega
  · have := ordOf_lt_delta hm h t
    omega

/-- From 1 March a marker of months looks back to January, from 1 May to March. -/
example : (Period.ofTime Denom.M.freq (date 2017 3 1 - getFreqDelta Denom.M.freq)).startTime = date 2017 1 1 ∧
    (Period.ofTime Denom.M.freq (date 2017 5 31 - getFreqDelta Denom.M.freq)).startTime = date 2017 4 1 := by decide +kernel

/-- What may happen with years ending in June: from 30 June 2016 only the current year is looked at. -/
example : (Period.ofTime (Denom.A (some 5)).freq (date 2016 6 30 - getFreqDelta (Denom.A (some 5)).freq)).startTime = date 2015 7 1 := by decide +kernel

end TB
