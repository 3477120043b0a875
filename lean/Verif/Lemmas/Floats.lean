import Verif.Lemmas.CountPeriods
import Verif.Model.Floats
import Verif.Spec.Floats
/-! Laws of computations with rounding. -/
namespace TB
variable {L : Type}

theorem Rounding.again {fl : Rat → Rat} {p : Nat} (h : Rounding fl p) (x : Rat) : fl (fl x) = fl x := by
  obtain ⟨m, e, h1, h2⟩ := h.float x
  rw [h2]
  exact h.exact m e h1

theorem Rounding.int {fl : Rat → Rat} {p : Nat} (h : Rounding fl p) {n : Int} (hn : n.natAbs ≤ 2 ^ p) : fl (n : Rat) = (n : Rat) := by
  have := h.exact n 0 hn
  rwa [Rat.zpow_zero, Rat.mul_one] at this

theorem Rounding.zero {fl : Rat → Rat} {p : Nat} (h : Rounding fl p) : fl 0 = 0 := h.int (n := 0) (Nat.zero_le _)

theorem Rounding.one {fl : Rat → Rat} {p : Nat} (h : Rounding fl p) : fl 1 = 1 := h.int (n := 1) (Nat.one_le_two_pow)

theorem countPositive_nonneg : ∀ {es : List (Option (Interval L × Int))} {n : Int}, countPositive es = .ok n → 0 ≤ n
  | [], n, h => by cases h; exact Int.le_refl 0
  | none :: _, n, h => by cases h
  | some (_, c) :: rest, n, h => by
    unfold countPositive at h
    cases hr : countPositive rest with
    | error e => rw [hr] at h; cases h
    | ok r =>
      rw [hr] at h
      have := countPositive_nonneg hr
      cases h
      show 0 ≤ (if c > 0 then 1 else 0) + r
      split <;> omega

theorem Timeboard.num_pos {tb : Timeboard L} {s : Schedule L} {duty : Duty} {freq : Freq} {lo hi k : Int}
    (h : k ∈ tb.dutyPositions s.selector duty lo hi) : 0 < tb.num s duty freq lo hi (tb.per freq k) := by
  unfold Timeboard.num
  exact List.length_pos_of_mem (List.mem_filter.2 ⟨h, by simp⟩)

/-- What `count_periods` computes with rounding: one ratio, or two ratios and a number of whole periods. -/
inductive FloatShape (fl : Rat → Rat) (tb : Timeboard L) (s : Schedule L) (duty : Duty) (freq : Freq) (lo hi : Int) : Rat → Prop
  | one (p : Int) (hp : ∀ k ∈ tb.dutyPositions s.selector duty lo hi, tb.per freq k = p) (hd : 0 < tb.den s duty freq p)
      (hw : tb.weight s duty freq lo hi = (tb.num s duty freq lo hi p : Rat) * (1 / (tb.den s duty freq p : Rat))) :
      FloatShape fl tb s duty freq lo hi (fl ((tb.num s duty freq lo hi p : Rat) * (1 / (tb.den s duty freq p : Rat))))
  | many (p0 p1 n : Int) (hlt : p0 < p1) (hp : ∀ k ∈ tb.dutyPositions s.selector duty lo hi, p0 ≤ tb.per freq k ∧ tb.per freq k ≤ p1)
      (n0 : 0 < tb.num s duty freq lo hi p0) (n1 : 0 < tb.num s duty freq lo hi p1)
      (d0 : 0 < tb.den s duty freq p0) (d1 : 0 < tb.den s duty freq p1) (hn : 0 ≤ n)
      (hw : tb.weight s duty freq lo hi = (tb.num s duty freq lo hi p0 : Rat) * (1 / (tb.den s duty freq p0 : Rat)) +
        (tb.num s duty freq lo hi p1 : Rat) * (1 / (tb.den s duty freq p1 : Rat)) + (n : Rat)) :
      FloatShape fl tb s duty freq lo hi (fl (fl (fl ((tb.num s duty freq lo hi p0 : Rat) * (1 / (tb.den s duty freq p0 : Rat))) +
        fl ((tb.num s duty freq lo hi p1 : Rat) * (1 / (tb.den s duty freq p1 : Rat)))) + (n : Rat)))

/-- The computation after the first and the last workshift with the duty are found. -/
theorem Interval.Proper.floatPeriodsBody_shape {fl : Rat → Rat} {p : Nat} (hfl : Rounding fl p) {tb : Timeboard L} (h : tb.Reachable) {v : Interval L} (hp : v.Proper tb) {s : Schedule L}
    (ho : tb.Owns s) {freq : Freq} (hm : freq.mult = 1) {duty : Duty} (hd : duty = .on ∨ duty = .off ∨ duty = .any)
    {a b : Time} {F : Frame} (hF : Frame.new freq a b = .ok F) (hab : a ≤ b)
    (hra : ∀ k, v.lo ≤ k → k ≤ v.hi → a ≤ tb.timeline.refTime k ∧ tb.timeline.refTime k ≤ b)
    {k0 k1 : Int} (hk0 : k0 ∈ tb.dutyPositions s.selector duty v.lo v.hi) (hk1 : k1 ∈ tb.dutyPositions s.selector duty v.lo v.hi)
    (hall : ∀ k ∈ tb.dutyPositions s.selector duty v.lo v.hi, k0 ≤ k ∧ k ≤ k1) :
    (∀ o, freq.base.ordOf a ≤ o → o ≤ freq.base.ordOf b → FitPeriod tb ⟨freq, o⟩) ∧
      (∃ x, v.floatPeriodsBody fl tb freq duty s F (tb.timeline.refTime k0) (tb.timeline.refTime k1) = .ok x ∧ FloatShape fl tb s duty freq v.lo v.hi x) ∨
    (∃ o e, freq.base.ordOf a ≤ o ∧ o ≤ freq.base.ordOf b ∧ UnfitError tb ⟨freq, o⟩ e ∧
       v.floatPeriodsBody fl tb freq duty s F (tb.timeline.refTime k0) (tb.timeline.refTime k1) = .error e) := by
  have hv := h.valid
  have hos : tb.OwnsOpt (some s) := by intro x hx; cases hx; exact ho
  have hlo := hp.lo_nonneg
  have hhi := hp.hi_lt
  have hlohi := hp.lo_le_hi
  obtain ⟨F', hF1, hF2, hF3, hF4⟩ := Timeboard.Valid.periodIndex hm hab
  rw [hF] at hF1; cases hF1
  obtain ⟨m1, m2, _⟩ := Timeboard.mem_dutyPositions.1 hk0
  obtain ⟨n1, n2, _⟩ := Timeboard.mem_dutyPositions.1 hk1
  have hk01 := (hall k1 hk1).1
  obtain ⟨ra1, ra2⟩ := hra k0 m1 m2
  obtain ⟨rb1, rb2⟩ := hra k1 n1 n2
  have hk0a : k0 ∈ tb.allDuty s duty := by
    rw [Timeboard.dutyPositions_eq_filter hlo hhi] at hk0; exact (List.mem_filter.1 hk0).1
  have hk1a : k1 ∈ tb.allDuty s duty := by
    rw [Timeboard.dutyPositions_eq_filter hlo hhi] at hk1; exact (List.mem_filter.1 hk1).1
  have hmem : ∀ o, o ∈ F.ords ↔ (freq.base.ordOf a ≤ o ∧ o ≤ freq.base.ordOf b) := by
    intro o; rw [hF2, mem_intRange]; omega
  have hl0 : F.getLoc (tb.timeline.refTime k0) = .ok (tb.per freq k0 - freq.base.ordOf a) := hF4 _ ra1 ra2
  have hl1 : F.getLoc (tb.timeline.refTime k1) = .ok (tb.per freq k1 - freq.base.ordOf a) := hF4 _ rb1 rb2
  have p0a : freq.base.ordOf a ≤ tb.per freq k0 := freq.base.ordOf_mono ra1
  have p0b : tb.per freq k0 ≤ freq.base.ordOf b := freq.base.ordOf_mono ra2
  have p1a : freq.base.ordOf a ≤ tb.per freq k1 := freq.base.ordOf_mono rb1
  have p1b : tb.per freq k1 ≤ freq.base.ordOf b := freq.base.ordOf_mono rb2
  have p01 : tb.per freq k0 ≤ tb.per freq k1 := hv.per_mono freq (by omega) hk01 (by omega)
  rcases periodLoop_spec h ho hm hd F.ords with ⟨a1, es, a2, a3⟩ | ⟨o, b1, e, b2, b3⟩
  · left
    refine ⟨fun o h1 h2 => a1 o ((hmem o).2 ⟨h1, h2⟩), ?_⟩
    -- entries of periods with workshifts having the duty
    have hent : ∀ k, k ∈ tb.allDuty s duty → freq.base.ordOf a ≤ tb.per freq k → tb.per freq k ≤ freq.base.ordOf b →
        ∃ u, periodEntry es (tb.per freq k - freq.base.ordOf a) = .ok (u, (tb.den s duty freq (tb.per freq k) : Int)) ∧
          u.Proper tb ∧ ∀ j, (u.lo ≤ j ∧ j ≤ u.hi) ↔ (0 ≤ j ∧ j < tb.timeline.len ∧ tb.per freq j = tb.per freq k) := by
      intro k hk h1 h2
      have hget : F.ords[(tb.per freq k - freq.base.ordOf a).toNat]? = some (tb.per freq k) := by
        rw [hF2, getElem?_intRange (by omega)]; congr 1; omega
      obtain ⟨e, g1, g2⟩ := a3.get hget
      obtain ⟨k0', k1'⟩ := Timeboard.mem_allDuty hk
      cases e with
      | none => exact absurd ((hv.refIn_per hm).2 ⟨k0', k1', rfl⟩) (g2.1 k)
      | some uc =>
        obtain ⟨u, c⟩ := uc
        obtain ⟨q1, q2, q3⟩ := g2
        refine ⟨u, ?_, q1, fun j => (q2 j).trans (hv.refIn_per hm)⟩
        unfold periodEntry
        rw [pyGet?_nonneg _ (by omega), g1, q3]
    obtain ⟨u0, e0, u0p, u0m⟩ := hent k0 hk0a p0a p0b
    obtain ⟨u1, e1, u1p, u1m⟩ := hent k1 hk1a p1a p1b
    have d0 := Timeboard.den_pos (freq := freq) hk0a
    have d1 := Timeboard.den_pos (freq := freq) hk1a
    have hdiv : ∀ (n d : Nat), 0 < d → floatDiv fl (n : Int) (d : Int) = .ok (fl ((n : Rat) * (1 / (d : Rat)))) := by
      intro n d hd'
      unfold floatDiv
      rw [if_neg (by omega), Rat.intCast_natCast, Rat.intCast_natCast, Rat.div_def, Rat.div_def, Rat.one_mul]
    have hperle : ∀ k ∈ tb.dutyPositions s.selector duty v.lo v.hi, tb.per freq k0 ≤ tb.per freq k ∧ tb.per freq k ≤ tb.per freq k1 := by
      intro k hk
      obtain ⟨q1, q2, _⟩ := Timeboard.mem_dutyPositions.1 hk
      obtain ⟨q3, q4⟩ := hall k hk
      exact ⟨hv.per_mono freq (by omega) q3 (by omega), hv.per_mono freq (by omega) q4 (by omega)⟩
    have hcond : (tb.timeline.refTime k1 ≤ F.unitEnd (tb.per freq k0 - freq.base.ordOf a)) ↔ tb.per freq k1 = tb.per freq k0 := by
      rw [hF3]
      have e : freq.base.ordOf a + (tb.per freq k0 - freq.base.ordOf a) + 1 = tb.per freq k0 + 1 := by omega
      rw [e]
      have := freq.base.lt_startOf_iff (tb.per freq k0 + 1) (tb.timeline.refTime k1)
      have e2 : freq.base.ordOf (tb.timeline.refTime k1) = tb.per freq k1 := rfl
      rw [e2] at this
      omega
    by_cases hsame : tb.per freq k1 = tb.per freq k0
    · -- a single period
      have hone : ∀ k ∈ tb.dutyPositions s.selector duty v.lo v.hi, tb.per freq k = tb.per freq k0 := by
        intro k hk; have := hperle k hk; omega
      have hw := Timeboard.weight_eq_sum (tb := tb) (s := s) (duty := duty) (freq := freq) (lo := v.lo) (hi := v.hi)
        (os := [tb.per freq k0]) (by simp) (fun k hk => by simp [hone k hk])
      have hnum : tb.num s duty freq v.lo v.hi (tb.per freq k0) = (tb.dutyPositions s.selector duty v.lo v.hi).length := by
        unfold Timeboard.num
        rw [List.filter_eq_self.2]
        intro k hk; simp [hone k hk]
      have hcnt : v.count tb duty (some s) = .ok ((tb.dutyPositions s.selector duty v.lo v.hi).length : Int) := hp.count_eq hv (by exact ho) hd
      unfold Interval.floatPeriodsBody
      simp only [a2, hl0, hl1, Bind.bind, Except.bind, if_pos (hcond.2 hsame), e0, hcnt]
      rw [hdiv _ _ d0, ← hnum]
      refine ⟨_, rfl, .one (tb.per freq k0) hone d0 ?_⟩
      rw [hw]
      simp only [List.map_cons, List.map_nil, List.sum_cons, List.sum_nil]
      grind
    · -- several periods
      have hlt : tb.per freq k0 < tb.per freq k1 := by omega
      have u0lo := u0p.lo_nonneg
      have u0hi := u0p.hi_lt
      have u1lo := u1p.lo_nonneg
      have u1hi := u1p.hi_lt
      obtain ⟨x1, x2⟩ := (u0m k0).2 ⟨by omega, by omega, rfl⟩
      obtain ⟨y1, y2⟩ := (u1m k1).2 ⟨by omega, by omega, rfl⟩
      have t0 : timeOrTypeError (u0.endTime tb) = .ok (tb.timeline.frame.unitStart (tb.timeline.bnd (u0.hi + 1)) - 1) := by
        unfold Interval.endTime
        rw [u0p.not_void, hv.wf.wsEnd_eq (by omega) u0hi]; rfl
      have t1 : timeOrTypeError (u1.startTime tb) = .ok (tb.timeline.frame.unitStart (tb.timeline.bnd u1.lo)) := by
        unfold Interval.startTime
        rw [u1p.not_void, hv.wf.wsStart_eq u1lo (by omega)]; rfl
      obtain ⟨v0, v01, v02⟩ := count_between h ho hd (hv.at_ref (k := k0) (by omega) (by omega)) (hv.at_end_of (k := u0.hi) (by omega) u0hi) x2
      obtain ⟨v1, v11, v12⟩ := count_between h ho hd (hv.at_start_of (k := u1.lo) u1lo (by omega)) (hv.at_ref (k := k1) (by omega) (by omega)) y1
      have c0 : (tb.dutyPositions s.selector duty k0 u0.hi).length = tb.num s duty freq v.lo v.hi (tb.per freq k0) := by
        unfold Timeboard.num
        rw [Timeboard.dutyPositions_eq_filter (by omega) u0hi, Timeboard.dutyPositions_eq_filter hlo hhi, List.filter_filter]
        congr 1
        apply List.filter_congr
        intro k hk
        obtain ⟨q1, q2⟩ := Timeboard.mem_allDuty hk
        rw [Bool.eq_iff_iff]
        simp only [Bool.and_eq_true, decide_eq_true_eq]
        constructor
        · rintro ⟨r1, r2⟩
          have hpk := ((u0m k).1 ⟨by omega, r2⟩).2.2
          refine ⟨hpk, by omega, ?_⟩
          rcases Int.lt_or_le v.hi k with hc | hc
          · have := hv.per_mono freq (j := k1) (k := k) (by omega) (by omega) q2
            omega
          · exact hc
        · rintro ⟨r1, r2, r3⟩
          have hkm : k ∈ tb.dutyPositions s.selector duty v.lo v.hi := by
            rw [Timeboard.dutyPositions_eq_filter hlo hhi]; exact List.mem_filter.2 ⟨hk, by simp [r2, r3]⟩
          exact ⟨(hall k hkm).1, ((u0m k).2 ⟨q1, q2, r1⟩).2⟩
      have c1 : (tb.dutyPositions s.selector duty u1.lo k1).length = tb.num s duty freq v.lo v.hi (tb.per freq k1) := by
        unfold Timeboard.num
        rw [Timeboard.dutyPositions_eq_filter u1lo (by omega), Timeboard.dutyPositions_eq_filter hlo hhi, List.filter_filter]
        congr 1
        apply List.filter_congr
        intro k hk
        obtain ⟨q1, q2⟩ := Timeboard.mem_allDuty hk
        rw [Bool.eq_iff_iff]
        simp only [Bool.and_eq_true, decide_eq_true_eq]
        constructor
        · rintro ⟨r1, r2⟩
          have hpk := ((u1m k).1 ⟨r1, by omega⟩).2.2
          refine ⟨hpk, ?_, by omega⟩
          rcases Int.lt_or_le k v.lo with hc | hc
          · have := hv.per_mono freq (j := k) (k := k0) (by omega) (by omega) (by omega)
            omega
          · exact hc
        · rintro ⟨r1, r2, r3⟩
          have hkm : k ∈ tb.dutyPositions s.selector duty v.lo v.hi := by
            rw [Timeboard.dutyPositions_eq_filter hlo hhi]; exact List.mem_filter.2 ⟨hk, by simp [r2, r3]⟩
          exact ⟨((u1m k).2 ⟨q1, q2, r1⟩).1, (hall k hkm).2⟩
      -- the periods in between
      have hmid : ∀ o ∈ intRange (tb.per freq k0 + 1) (tb.per freq k1), tb.num s duty freq v.lo v.hi o = tb.den s duty freq o := by
        intro o ho'
        rw [mem_intRange] at ho'
        unfold Timeboard.num Timeboard.den
        rw [Timeboard.dutyPositions_eq_filter hlo hhi, List.filter_filter]
        congr 1
        apply List.filter_congr
        intro k hk
        obtain ⟨q1, q2⟩ := Timeboard.mem_allDuty hk
        rw [Bool.eq_iff_iff]
        simp only [Bool.and_eq_true, decide_eq_true_eq]
        constructor
        · exact fun hx => hx.1
        · intro hx
          refine ⟨hx, ?_, ?_⟩
          · rcases Int.lt_or_le k v.lo with hc | hc
            · have := hv.per_mono freq (j := k) (k := k0) q1 (by omega) (by omega)
              omega
            · exact hc
          · rcases Int.lt_or_le v.hi k with hc | hc
            · have := hv.per_mono freq (j := k1) (k := k) (by omega) (by omega) q2
              omega
            · exact hc
      have hwithin : ∀ o ∈ intRange (tb.per freq k0 + 1) (tb.per freq k1),
          tb.Within (Period.startTime ⟨freq, o⟩) ∧ tb.Within (Period.endTime ⟨freq, o⟩) := by
        intro o ho'
        rw [mem_intRange] at ho'
        have z0 := hv.refTime_in_frame (k := k0) (by omega) (by omega)
        have z1 := hv.refTime_in_frame (k := k1) (by omega) (by omega)
        have z2 := (freq.base.lt_startOf_iff o (tb.timeline.refTime k0)).2 (by have : freq.base.ordOf (tb.timeline.refTime k0) = tb.per freq k0 := rfl; omega)
        have z3 := (freq.base.startOf_le_iff (o + 1) (tb.timeline.refTime k1)).2 (by have : freq.base.ordOf (tb.timeline.refTime k1) = tb.per freq k1 := rfl; omega)
        have z4 := (freq.base.startOf_lt_iff o (o + 1)).2 (by omega)
        unfold Timeboard.Within
        simp only [Period.startTime, Period.endTime, hm, Int.natCast_one]
        omega
      have hslice : (F.ords.take (tb.per freq k1 - freq.base.ordOf a).toNat).drop (tb.per freq k0 - freq.base.ordOf a + 1).toNat =
          intRange (tb.per freq k0 + 1) (tb.per freq k1) := by
        rw [hF2]
        apply List.ext_getElem?
        intro i
        rw [List.getElem?_drop, List.getElem?_take]
        rcases Int.lt_or_le (tb.per freq k0 + 1 + i) (tb.per freq k1) with hc | hc
        · rw [if_pos (by omega), getElem?_intRange (by omega), getElem?_intRange (by omega)]
          congr 1; omega
        · rw [if_neg (by omega), List.getElem?_eq_none (by rw [length_intRange]; omega)]
      have hel := (a3.take (tb.per freq k1 - freq.base.ordOf a).toNat).drop (tb.per freq k0 - freq.base.ordOf a + 1).toNat
      rw [hslice] at hel
      obtain ⟨n, hn1, hn2⟩ := hel.countPositive hwithin
      -- the sum
      have hw := Timeboard.weight_eq_sum (tb := tb) (s := s) (duty := duty) (freq := freq) (lo := v.lo) (hi := v.hi)
        (os := intRange (tb.per freq k0) (tb.per freq k1 + 1)) (nodup_intRange _ _) (fun k hk => by
          rw [mem_intRange]; have := hperle k hk; omega)
      rw [intRange_cons (by omega), ← intRange_append (b := tb.per freq k1) (by omega) (by omega),
        intRange_cons (a := tb.per freq k1) (by omega), intRange_empty (Int.le_refl _)] at hw
      have hms : (intRange (tb.per freq k0 + 1) (tb.per freq k1)).map (fun o => (tb.num s duty freq v.lo v.hi o : Rat) * (1 / (tb.den s duty freq o : Rat))) =
          (intRange (tb.per freq k0 + 1) (tb.per freq k1)).map (fun o => (tb.den s duty freq o : Rat) * (1 / (tb.den s duty freq o : Rat))) := by
        apply List.map_congr_left
        intro o ho'
        rw [hmid o ho']
      simp only [List.map_cons, List.map_append, List.map_nil, List.sum_cons, List.sum_append, List.sum_nil, hms, ← hn2] at hw
      unfold Interval.floatPeriodsBody
      simp only [a2, hl0, hl1, Bind.bind, Except.bind, if_neg (fun hx => hsame (hcond.1 hx)), e0, e1, t0, t1, v01, v02, v11, v12]
      rw [hdiv _ _ d0, hdiv _ _ d1, c0, c1]
      simp only [pure, Except.pure]
      have nn := countPositive_nonneg hn1
      have hweight : tb.weight s duty freq v.lo v.hi =
          (tb.num s duty freq v.lo v.hi (tb.per freq k0) : Rat) * (1 / (tb.den s duty freq (tb.per freq k0) : Rat)) +
          (tb.num s duty freq v.lo v.hi (tb.per freq k1) : Rat) * (1 / (tb.den s duty freq (tb.per freq k1) : Rat)) + (n : Rat) := by
        rw [hw]; grind
      have n0 := Timeboard.num_pos (freq := freq) hk0
      have n1' := Timeboard.num_pos (freq := freq) hk1
      rw [Rat.zero_add, hfl.again]
      by_cases hfull : tb.per freq k1 - freq.base.ordOf a - (tb.per freq k0 - freq.base.ordOf a) - 1 > 0
      · rw [if_pos hfull]
        simp only [hn1]
        exact ⟨_, rfl, .many (tb.per freq k0) (tb.per freq k1) n hlt hperle n0 n1' d0 d1 nn hweight⟩
      · rw [if_neg hfull]
        have hz : n = 0 := by
          rw [intRange_empty (by omega)] at hn2
          simp only [List.map_nil, List.sum_nil] at hn2
          exact_mod_cast hn2
        subst hz
        have := FloatShape.many (fl := fl) (tb.per freq k0) (tb.per freq k1) 0 hlt hperle n0 n1' d0 d1 nn hweight
        rw [show ((0 : Int) : Rat) = 0 from rfl, Rat.add_zero, hfl.again] at this
        exact ⟨_, rfl, this⟩
  · right
    refine ⟨o, e, ((hmem o).1 b1).1, ((hmem o).1 b1).2, b2, ?_⟩
    unfold Interval.floatPeriodsBody
    simp [b3, Bind.bind, Except.bind]

/-- The whole of `count_periods` with rounding on a regular interval. -/
theorem Interval.Proper.floatPeriods_shape {fl : Rat → Rat} {p : Nat} (hfl : Rounding fl p) {tb : Timeboard L} (h : tb.Reachable) {v : Interval L} (hp : v.Proper tb)
    {sch : Option (Schedule L)} (ho : tb.Owns (sch.getD v.schedule)) {freq : Freq} (hsup : supportedPeriod freq = true)
    {duty : Duty} (hd : duty = .on ∨ duty = .off ∨ duty = .any) {a b : Time} (ha : v.startTime tb = .ok (some a)) (hb : v.endTime tb = .ok (some b)) :
    (tb.dutyPositions (sch.getD v.schedule).selector duty v.lo v.hi = [] ∧ v.floatPeriods fl tb freq duty sch = .ok 0) ∨
    (tb.dutyPositions (sch.getD v.schedule).selector duty v.lo v.hi ≠ [] ∧
      (∀ o, freq.base.ordOf a ≤ o → o ≤ freq.base.ordOf b → FitPeriod tb ⟨freq, o⟩) ∧
      ∃ x, v.floatPeriods fl tb freq duty sch = .ok x ∧ FloatShape fl tb (sch.getD v.schedule) duty freq v.lo v.hi x) ∨
    (tb.dutyPositions (sch.getD v.schedule).selector duty v.lo v.hi ≠ [] ∧
      ∃ o e, freq.base.ordOf a ≤ o ∧ o ≤ freq.base.ordOf b ∧ UnfitError tb ⟨freq, o⟩ e ∧ v.floatPeriods fl tb freq duty sch = .error e) := by
  have hv := h.valid
  have hlo := hp.lo_nonneg
  have hhi := hp.hi_lt
  have hlohi := hp.lo_le_hi
  have hm := supportedPeriod_mult hsup
  generalize hs : sch.getD v.schedule = s at *
  have ea : a = tb.timeline.frame.unitStart (tb.timeline.bnd v.lo) := by
    unfold Interval.startTime at ha
    rw [hp.not_void, hv.wf.wsStart_eq hlo (by omega)] at ha
    simp only [Bool.false_eq_true, if_false] at ha
    cases ha; rfl
  have eb : b = tb.timeline.frame.unitStart (tb.timeline.bnd (v.hi + 1)) - 1 := by
    unfold Interval.endTime at hb
    rw [hp.not_void, hv.wf.wsEnd_eq (by omega) hhi] at hb
    simp only [Bool.false_eq_true, if_false] at hb
    cases hb; rfl
  have hra : ∀ k, v.lo ≤ k → k ≤ v.hi → a ≤ tb.timeline.refTime k ∧ tb.timeline.refTime k ≤ b := by
    intro k h1 h2
    obtain ⟨q1, q2⟩ := hv.wf.refTime_within (k := k) (by omega) (by omega)
    have z1 : tb.timeline.frame.unitStart (tb.timeline.bnd v.lo) ≤ tb.timeline.frame.unitStart (tb.timeline.bnd k) :=
      Frame.unitStart_le_iff.2 (hv.wf.bnd_le_bnd (by omega) h1 (by omega))
    have z2 : tb.timeline.frame.unitStart (tb.timeline.bnd (k + 1)) ≤ tb.timeline.frame.unitStart (tb.timeline.bnd (v.hi + 1)) :=
      Frame.unitStart_le_iff.2 (hv.wf.bnd_le_bnd (by omega) (by omega) (by omega))
    omega
  have hab : a ≤ b := by have := hra v.lo (by omega) hlohi; omega
  obtain ⟨F, hF, _⟩ := Timeboard.Valid.periodIndex hm hab
  have hn0 := hp.nth_eq hv (sch := some s) (by exact ho) hd 0
  have hn1 := hp.nth_eq hv (sch := some s) (by exact ho) hd (-1)
  simp only [Option.getD_some] at hn0 hn1
  unfold Interval.floatPeriods Interval.first Interval.last
  simp only [hp.not_void, hsup, ha, hb, hF, hs, timeOrTypeError, Bool.false_eq_true, if_false, Bool.not_true, Bind.bind, Except.bind, hn0, hn1]
  cases hD : tb.dutyPositions s.selector duty v.lo v.hi with
  | nil => left; exact ⟨rfl, rfl⟩
  | cons k0 ks =>
    right
    have hpw := tb.pairwise_dutyPositions s.selector duty v.lo v.hi
    have hk0 : k0 ∈ tb.dutyPositions s.selector duty v.lo v.hi := by rw [hD]; simp
    obtain ⟨k1, hk1e⟩ : ∃ k1, (k0 :: ks).getLast? = some k1 := ⟨_, List.getLast?_cons⟩
    have hk1 : k1 ∈ tb.dutyPositions s.selector duty v.lo v.hi := by rw [hD]; exact List.mem_of_getLast? hk1e
    have hall : ∀ k ∈ tb.dutyPositions s.selector duty v.lo v.hi, k0 ≤ k ∧ k ≤ k1 := by
      intro k hk
      rw [hD] at hk hpw
      constructor
      · rcases List.mem_cons.1 hk with rfl | hk
        · exact Int.le_refl _
        · exact Int.le_of_lt ((List.pairwise_cons.1 hpw).1 k hk)
      · obtain ⟨l, hl⟩ := List.getLast?_eq_some_iff.1 hk1e
        rw [hl] at hk hpw
        rcases List.mem_append.1 hk with hk | hk
        · exact Int.le_of_lt ((List.pairwise_append.1 hpw).2.2 k hk k1 (by simp))
        · simp only [List.mem_singleton] at hk; omega
    have g0 : pyGet? (k0 :: ks) 0 = some k0 := by rw [pyGet?_nonneg _ (by omega)]; rfl
    have g1 : pyGet? (k0 :: ks) (-1) = some k1 := by
      unfold pyGet?
      rw [List.getLast?_eq_getElem?] at hk1e
      simp only [List.length_cons] at hk1e ⊢
      rw [if_neg (by decide), if_pos (by omega), ← hk1e]; congr 1; omega
    obtain ⟨m1, m2, _⟩ := Timeboard.mem_dutyPositions.1 hk0
    obtain ⟨n1, n2, _⟩ := Timeboard.mem_dutyPositions.1 hk1
    obtain ⟨w0, c0, _, _, _, _, _, t0, _⟩ := Workshift.exists_of_range hv (some s) (k := k0) (by omega) (by omega)
    obtain ⟨w1, c1, _, _, _, _, _, t1, _⟩ := Workshift.exists_of_range hv (some s) (k := k1) (by omega) (by omega)
    simp only [g0, g1, c0, c1, t0, t1]
    have hne : k0 :: ks ≠ [] := by simp
    rcases hp.floatPeriodsBody_shape hfl h ho hm hd hF hab hra hk0 hk1 hall with ⟨r1, r2⟩ | r
    · exact .inl ⟨hne, r1, r2⟩
    · exact .inr ⟨hne, r⟩

end TB
