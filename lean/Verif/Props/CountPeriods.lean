import Verif.Lemmas.CountPeriods
import Verif.Spec.Counting
import Verif.Spec.Frequencies
import Verif.Props.Duty
/-! Properties C28, C29: counting calendar periods. -/
namespace TB
open TB.Ex
variable {L : Type}

theorem Timeboard.howMany_eq {tb : Timeboard L} {P : Int → Prop} {ks : List Int} (hp : ks.Pairwise (· < ·))
    (h : ∀ k, k ∈ ks ↔ (0 ≤ k ∧ k < tb.timeline.len ∧ P k)) : tb.howMany P = ks.length := by
  classical
  unfold Timeboard.howMany
  congr 1
  apply eq_of_pairwise_lt ((pairwise_intRange _ _).filter _) hp
  intro k
  rw [h, List.mem_filter, mem_intRange]
  simp only [decide_eq_true_eq]
  constructor
  · rintro ⟨⟨h1, h2⟩, h3⟩; exact ⟨h1, h2, h3⟩
  · rintro ⟨h1, h2, h3⟩; exact ⟨⟨h1, h2⟩, h3⟩

theorem Timeboard.Valid.mem_allDuty_iff {tb : Timeboard L} (hv : tb.Valid) {s : Schedule L} {duty : Duty} {k : Int} :
    k ∈ tb.allDuty s duty ↔ tb.DutyAt s duty k := by
  unfold Timeboard.allDuty
  rw [hv.mem_dutyPositions_iff (by omega) (by omega)]
  constructor
  · exact fun h => h.2.2
  · exact fun h => ⟨h.1, by have := h.2.1; omega, h⟩

theorem Timeboard.Valid.wholeOf_eq {tb : Timeboard L} (hv : tb.Valid) {s : Schedule L} {duty : Duty} {freq : Freq} (hm : freq.mult = 1) (o : Int) :
    tb.wholeOf s duty ⟨freq, o⟩ = tb.den s duty freq o := by
  unfold Timeboard.wholeOf Timeboard.den
  apply Timeboard.howMany_eq ((tb.pairwise_dutyPositions _ _ _ _).filter _)
  intro k
  rw [List.mem_filter]
  have hma : k ∈ tb.dutyPositions s.selector duty 0 (tb.timeline.len - 1) ↔ tb.DutyAt s duty k := hv.mem_allDuty_iff
  rw [hma, hv.refIn_per hm, decide_eq_true_eq]
  constructor
  · rintro ⟨h1, h2⟩; exact ⟨h1.1, h1.2.1, h1, h1.1, h1.2.1, h2⟩
  · rintro ⟨_, _, h1, _, _, h2⟩; exact ⟨h1, h2⟩

theorem Interval.Fine.partOf_eq {tb : Timeboard L} (hv : tb.Valid) {v : Interval L} (hf : v.Fine tb) {s : Schedule L} {duty : Duty} {freq : Freq}
    (hm : freq.mult = 1) (o : Int) : tb.partOf v s duty ⟨freq, o⟩ = tb.num s duty freq v.lo v.hi o := by
  unfold Timeboard.partOf Timeboard.num
  apply Timeboard.howMany_eq ((tb.pairwise_dutyPositions _ _ _ _).filter _)
  intro k
  rw [List.mem_filter, hv.mem_dutyPositions_iff hf.nonneg.1 hf.lt.2, hv.refIn_per hm, decide_eq_true_eq, hf.contains_iff hv]
  constructor
  · rintro ⟨⟨g1, g2, h1⟩, h2⟩; exact ⟨h1.1, h1.2.1, ⟨g1, g2⟩, h1, h1.1, h1.2.1, h2⟩
  · rintro ⟨_, _, ⟨g1, g2⟩, h1, _, _, h2⟩; exact ⟨⟨g1, g2, h1⟩, h2⟩

theorem Interval.Hollow.partOf_zero {tb : Timeboard L} (hv : tb.Valid) {v : Interval L} (hf : v.Fine tb) (hh : v.Hollow tb) (s : Schedule L)
    (duty : Duty) (p : Period) : tb.partOf v s duty p = 0 := by
  unfold Timeboard.partOf
  apply Timeboard.howMany_eq (ks := []) (by simp)
  intro k
  rw [hf.contains_iff hv]
  have := hh.hi_lt_lo
  simp only [List.not_mem_nil, false_iff]
  rintro ⟨_, _, ⟨g1, g2⟩, _⟩
  omega

/-- The value of `count_periods`, whenever there is one. -/
theorem Interval.Fine.countPeriods_val {tb : Timeboard L} (h : tb.Reachable) {v : Interval L} (hf : v.Fine tb) {sch : Option (Schedule L)}
    (hs : tb.OwnsOpt sch) {freq : Freq} {duty : Duty} (hd : duty = .on ∨ duty = .off ∨ duty = .any) {r : Rat}
    (hr : v.countPeriods tb freq duty sch = .ok r) :
    r = tb.weight (sch.getD v.schedule) duty freq v.lo v.hi ∧ (v.isVoid = true ∨ supportedPeriod freq = true ∧ v.Proper tb) := by
  have hv := h.valid
  rcases hf.shape with hp | hh
  · cases hsup : supportedPeriod freq with
    | false =>
      unfold Interval.countPeriods at hr
      simp [hp.not_void, hsup] at hr
    | true =>
      have ho := owns_getD_fine hf hs
      have hlo := hp.lo_nonneg
      have hhi := hp.hi_lt
      have hlohi := hp.lo_le_hi
      have ha : v.startTime tb = .ok (some (tb.timeline.frame.unitStart (tb.timeline.bnd v.lo))) := by
        unfold Interval.startTime
        rw [hp.not_void, hv.wf.wsStart_eq hlo (by omega)]; rfl
      have hb : v.endTime tb = .ok (some (tb.timeline.frame.unitStart (tb.timeline.bnd (v.hi + 1)) - 1)) := by
        unfold Interval.endTime
        rw [hp.not_void, hv.wf.wsEnd_eq (by omega) hhi]; rfl
      refine ⟨?_, .inr ⟨rfl, hp⟩⟩
      rcases hp.countPeriods_eq h ho hsup hd ha hb with ⟨c1, c2⟩ | ⟨_, _, c2⟩ | ⟨_, o, e, _, _, _, c2⟩
      · rw [hr] at c2; cases c2
        unfold Timeboard.weight
        rw [c1]; rfl
      · rw [hr] at c2; cases c2; rfl
      · rw [hr] at c2; cases c2
  · unfold Interval.countPeriods at hr
    rw [hh.void] at hr
    simp only [if_true, Except.ok.injEq] at hr
    refine ⟨?_, .inl hh.void⟩
    unfold Timeboard.weight
    rw [hh.dutyPositions_nil, ← hr]; rfl

/-- **C28.** When `count_periods` returns a number, it is the sum over the calendar periods of (workshifts with the duty in
the interval and in the period) / (workshifts with the duty in the period). The sum is over any list of different periods
which includes all with a nonzero numerator; such a list exists, and for each of its members with a nonzero numerator the
denominator is not zero. (Division by zero gives zero in Lean, which concerns only members with zero numerators.) -/
theorem C28_sum_of_ratios {tb : Timeboard L} (h : tb.Reachable) {v : Interval L} (hi : tb.HasInterval v) {sch : Option (Schedule L)}
    (hs : tb.OwnsOpt sch) {freq : Freq} {duty : Duty} (hd : duty = .on ∨ duty = .off ∨ duty = .any) {r : Rat}
    (hr : v.countPeriods tb freq duty sch = .ok r) :
    (∀ os : List Int, os.Nodup → (∀ o, tb.partOf v (sch.getD v.schedule) duty ⟨freq, o⟩ ≠ 0 → o ∈ os) →
      r = (os.map (fun o => (tb.partOf v (sch.getD v.schedule) duty ⟨freq, o⟩ : Rat) /
        (tb.wholeOf (sch.getD v.schedule) duty ⟨freq, o⟩ : Rat))).sum) ∧
    (∃ os : List Int, os.Nodup ∧ ∀ o, tb.partOf v (sch.getD v.schedule) duty ⟨freq, o⟩ ≠ 0 → o ∈ os) ∧
    (∀ o, tb.partOf v (sch.getD v.schedule) duty ⟨freq, o⟩ ≠ 0 → tb.wholeOf (sch.getD v.schedule) duty ⟨freq, o⟩ ≠ 0) := by
  have hv := h.valid
  have hf := hi.fine hv
  obtain ⟨e, hcase⟩ := hf.countPeriods_val h hs hd hr
  generalize sch.getD v.schedule = s at *
  have hvoid : v.isVoid = true → v.Hollow tb := by
    intro hx
    rcases hf.shape with hp | hh
    · rw [hp.not_void] at hx; cases hx
    · exact hh
  rcases hcase with hx | ⟨hsup, hp⟩
  · have hz := (hvoid hx).partOf_zero hv hf s duty
    refine ⟨?_, ⟨[], by simp, fun o ho => absurd (hz _) ho⟩, fun o ho => absurd (hz _) ho⟩
    intro os _ _
    have e0 : r = 0 := by
      rw [e]; unfold Timeboard.weight
      rw [(hvoid hx).dutyPositions_nil]; rfl
    rw [e0]
    have : ∀ os : List Int, (os.map (fun o => (tb.partOf v s duty ⟨freq, o⟩ : Rat) / (tb.wholeOf s duty ⟨freq, o⟩ : Rat))).sum = 0 := by
      intro os
      induction os with
      | nil => rfl
      | cons o os ih => rw [List.map_cons, List.sum_cons, ih, hz]; grind
    rw [this]
  · have hm := supportedPeriod_mult hsup
    have epart := fun o => hf.partOf_eq hv (s := s) (duty := duty) hm o
    have ewhole := fun o => hv.wholeOf_eq (s := s) (duty := duty) hm o
    have hnz : ∀ k ∈ tb.dutyPositions s.selector duty v.lo v.hi, tb.num s duty freq v.lo v.hi (tb.per freq k) ≠ 0 := by
      intro k hk
      unfold Timeboard.num
      intro hx
      have := List.eq_nil_of_length_eq_zero hx
      have hmem : k ∈ (tb.dutyPositions s.selector duty v.lo v.hi).filter (fun j => decide (tb.per freq j = tb.per freq k)) :=
        List.mem_filter.2 ⟨hk, by simp⟩
      rw [this] at hmem; simp at hmem
    have hex : ∀ o, tb.num s duty freq v.lo v.hi o ≠ 0 → ∃ k ∈ tb.dutyPositions s.selector duty v.lo v.hi, tb.per freq k = o := by
      intro o ho
      unfold Timeboard.num at ho
      obtain ⟨k, hk⟩ := List.exists_mem_of_length_pos (Nat.pos_of_ne_zero ho)
      rw [List.mem_filter, decide_eq_true_eq] at hk
      exact ⟨k, hk⟩
    refine ⟨?_, ?_, ?_⟩
    · intro os hn hc
      rw [e, Timeboard.weight_eq_sum hn (fun k hk => hc _ (by rw [epart]; exact hnz k hk))]
      congr 1
      apply List.map_congr_left
      intro o _
      rw [epart, ewhole, Rat.div_def, Rat.div_def, Rat.one_mul]
    · refine ⟨intRange (tb.per freq v.lo) (tb.per freq v.hi + 1), nodup_intRange _ _, ?_⟩
      intro o ho
      rw [epart] at ho
      obtain ⟨k, hk, rfl⟩ := hex o ho
      obtain ⟨g1, g2, _⟩ := Timeboard.mem_dutyPositions.1 hk
      have h1 := hp.lo_nonneg
      have h2 := hp.hi_lt
      have := hv.per_mono freq h1 g1 (by omega)
      have := hv.per_mono freq (j := k) (k := v.hi) (by omega) g2 h2
      rw [mem_intRange]; omega
    · intro o ho
      rw [epart] at ho
      rw [ewhole]
      obtain ⟨k, hk, rfl⟩ := hex o ho
      rw [Timeboard.dutyPositions_eq_filter hp.lo_nonneg hp.hi_lt] at hk
      have := Timeboard.den_pos (freq := freq) (List.mem_filter.1 hk).1
      omega

theorem supportedPeriod_iff (f : Freq) : supportedPeriod f = true ↔ f ∈ countable := by
  obtain ⟨fac, d, hp⟩ := f
  unfold supportedPeriod countable
  cases fac with
  | some n => simp [Denom.freq]
  | none =>
    cases d with
    | W s => cases s <;> simp [Denom.freq]
    | Q s => cases s <;> simp [Denom.freq]
    | A s => cases s <;> simp [Denom.freq]
    | Y s => cases s <;> simp [Denom.freq]
    | _ => simp [Denom.freq]

/-- A calendar period touches an interval: they have a point in time in common. -/
def Period.Touches (p : Period) (v : Interval L) (tb : Timeboard L) : Prop :=
  ∃ a b, v.startTime tb = .ok (some a) ∧ v.endTime tb = .ok (some b) ∧ p.startTime ≤ b ∧ a ≤ p.endTime

/-- **C28.** When `count_periods` fails: on a void interval never; for an unsupported period UnacceptablePeriodError; for a
bad duty ValueError; otherwise, if there are no workshifts with the duty, the result is 0, and if there are, it fails iff
some calendar period touching the interval either is entirely on the timeboard and has no workshifts of its own
(UnacceptablePeriodError), or has workshifts and sticks out of the timeboard (PartialOutOfBoundsError).
There are no other failures: in particular no division by zero and no missing value. -/
theorem C28_failures {tb : Timeboard L} (h : tb.Reachable) {v : Interval L} (hi : tb.HasInterval v) {sch : Option (Schedule L)}
    (hs : tb.OwnsOpt sch) (freq : Freq) (duty : Duty) :
    (v.isVoid = true → v.countPeriods tb freq duty sch = .ok 0) ∧
    (v.isVoid = false → freq ∉ countable → v.countPeriods tb freq duty sch = .error .unacceptablePeriod) ∧
    (v.isVoid = false → freq ∈ countable → ¬ (duty = .on ∨ duty = .off ∨ duty = .any) →
      v.countPeriods tb freq duty sch = .error .valueError) ∧
    (v.isVoid = false → freq ∈ countable → (duty = .on ∨ duty = .off ∨ duty = .any) →
      ((∀ k, v.Contains tb k → ¬ tb.DutyAt (sch.getD v.schedule) duty k) → v.countPeriods tb freq duty sch = .ok 0) ∧
      ((∃ k, v.Contains tb k ∧ tb.DutyAt (sch.getD v.schedule) duty k) →
        ((∃ r, v.countPeriods tb freq duty sch = .ok r) ↔
          ∀ p : Period, p.freq = freq → p.Touches v tb → ((tb.Within p.startTime ∧ tb.Within p.endTime) ↔ ∃ k, tb.RefIn p k)) ∧
        (∀ e, v.countPeriods tb freq duty sch = .error e → ∃ p : Period, p.freq = freq ∧ p.Touches v tb ∧
          ((e = .unacceptablePeriod ∧ (tb.Within p.startTime ∧ tb.Within p.endTime) ∧ ∀ k, ¬ tb.RefIn p k) ∨
           (e = .partialOutOfBounds ∧ ¬ (tb.Within p.startTime ∧ tb.Within p.endTime) ∧ ∃ k, tb.RefIn p k))))) := by
  rw [← supportedPeriod_iff, Bool.not_eq_true]
  have hv := h.valid
  have hf := hi.fine hv
  have ho := owns_getD_fine hf hs
  refine ⟨fun hx => by unfold Interval.countPeriods; rw [hx]; rfl,
    fun hx hsup => by unfold Interval.countPeriods; simp [hx, hsup], ?_, ?_⟩
  all_goals
    intro hx hsup hd
    have hp : v.Proper tb := by
      rcases hf.shape with hp | hh
      · exact hp
      · rw [hh.void] at hx; cases hx
    have hm := supportedPeriod_mult hsup
    have hlo := hp.lo_nonneg
    have hhi := hp.hi_lt
    have hlohi := hp.lo_le_hi
    have ha : v.startTime tb = .ok (some (tb.timeline.frame.unitStart (tb.timeline.bnd v.lo))) := by
      unfold Interval.startTime
      rw [hp.not_void, hv.wf.wsStart_eq hlo (by omega)]; rfl
    have hb : v.endTime tb = .ok (some (tb.timeline.frame.unitStart (tb.timeline.bnd (v.hi + 1)) - 1)) := by
      unfold Interval.endTime
      rw [hp.not_void, hv.wf.wsEnd_eq (by omega) hhi]; rfl
    have hab : tb.timeline.frame.unitStart (tb.timeline.bnd v.lo) ≤ tb.timeline.frame.unitStart (tb.timeline.bnd (v.hi + 1)) - 1 := by
      have := Frame.unitStart_lt_iff (f := tb.timeline.frame).2 (hv.wf.bnd_lt_bnd hlo (by omega : v.lo < v.hi + 1) (by omega))
      omega
    generalize tb.timeline.frame.unitStart (tb.timeline.bnd v.lo) = a at ha hab
    generalize tb.timeline.frame.unitStart (tb.timeline.bnd (v.hi + 1)) - 1 = b at hb hab
  · obtain ⟨F, hF, _⟩ := Timeboard.Valid.periodIndex hm hab
    have hn : ∀ n, v.nth tb n duty (some (sch.getD v.schedule)) = .error .valueError := by
      intro n
      unfold Interval.nth
      simp only [hp.not_void, Bool.false_eq_true, if_false]
      rw [Interval.dutyIdx_bad hd]
    unfold Interval.countPeriods Interval.first Interval.last
    simp only [hp.not_void, hsup, ha, hb, hF, timeOrTypeError, Bool.false_eq_true, if_false, Bool.not_true, Bind.bind, Except.bind, hn]
    rfl
  · have hmemD : ∀ k, k ∈ tb.dutyPositions (sch.getD v.schedule).selector duty v.lo v.hi ↔ (v.Contains tb k ∧ tb.DutyAt (sch.getD v.schedule) duty k) := by
      intro k
      rw [hv.mem_dutyPositions_iff hlo hhi, hf.contains_iff hv, and_assoc]
    have htouch : ∀ o, Period.Touches ⟨freq, o⟩ v tb ↔ (freq.base.ordOf a ≤ o ∧ o ≤ freq.base.ordOf b) := by
      intro o
      unfold Period.Touches
      rw [ha, hb]
      have e1 := freq.base.startOf_le_iff o b
      have e2 := freq.base.lt_startOf_iff (o + 1) a
      simp only [Except.ok.injEq, Option.some.injEq, Period.startTime, Period.endTime, hm, Int.natCast_one]
      constructor
      · rintro ⟨_, _, rfl, rfl, q1, q2⟩; omega
      · rintro ⟨q1, q2⟩; exact ⟨a, b, rfl, rfl, by omega, by omega⟩
    rcases hp.countPeriods_eq h ho hsup hd ha hb with ⟨c1, c2⟩ | ⟨c1, cf, c2⟩ | ⟨c1, o, e, o1, o2, c3, c2⟩
    · refine ⟨fun _ => c2, ?_⟩
      rintro ⟨k, hk⟩
      have := (hmemD k).2 hk
      rw [c1] at this; simp at this
    · refine ⟨?_, ?_⟩
      · intro hno
        obtain ⟨k, hk⟩ := List.exists_mem_of_ne_nil _ c1
        obtain ⟨q1, q2⟩ := (hmemD k).1 hk
        exact absurd q2 (hno k q1)
      · intro _
        refine ⟨⟨fun _ => ?_, fun _ => ⟨_, c2⟩⟩, fun e he => by rw [c2] at he; cases he⟩
        rintro ⟨pf, po⟩ rfl ht
        obtain ⟨q1, q2⟩ := (htouch po).1 ht
        exact cf po q1 q2
    · refine ⟨?_, ?_⟩
      · intro hno
        obtain ⟨k, hk⟩ := List.exists_mem_of_ne_nil _ c1
        obtain ⟨q1, q2⟩ := (hmemD k).1 hk
        exact absurd q2 (hno k q1)
      · intro _
        refine ⟨⟨?_, ?_⟩, ?_⟩
        · rintro ⟨r, hr⟩; rw [c2] at hr; cases hr
        · intro hall
          exact absurd (hall ⟨freq, o⟩ rfl ((htouch o).2 ⟨o1, o2⟩)) c3.unfit
        · intro e' he
          rw [c2] at he; cases he
          exact ⟨⟨freq, o⟩, rfl, (htouch o).2 ⟨o1, o2⟩, c3⟩

theorem Timeboard.weight_nonneg {tb : Timeboard L} (s : Schedule L) (duty : Duty) (freq : Freq) (lo hi : Int) : 0 ≤ tb.weight s duty freq lo hi := by
  unfold Timeboard.weight
  induction tb.dutyPositions s.selector duty lo hi with
  | nil => exact Rat.le_refl
  | cons k ks ih =>
    rw [List.map_cons, List.sum_cons]
    have : (0 : Rat) ≤ 1 / (tb.den s duty freq (tb.per freq k) : Rat) := by
      by_cases hz : tb.den s duty freq (tb.per freq k) = 0
      · rw [hz]; decide +kernel
      · have := ratio_nonneg (n := 1) (d := (tb.den s duty freq (tb.per freq k) : Int)) (by omega) (by omega)
        rwa [Rat.intCast_natCast] at this
    exact Rat.add_nonneg this ih

/-- **C29.** Adding up: when an interval is made of two intervals which have no workshifts in common, and all three counts
exist, the count of the whole is the sum of the counts of the parts. -/
theorem C29_additive {tb : Timeboard L} (h : tb.Reachable) {u v x : Interval L} (hu : tb.HasInterval u) (hv : tb.HasInterval v)
    (hx : tb.HasInterval x) (hdis : ∀ k, ¬ (u.Contains tb k ∧ v.Contains tb k))
    (hun : ∀ k, x.Contains tb k ↔ (u.Contains tb k ∨ v.Contains tb k)) {s : Schedule L} (hs : tb.Owns s) {freq : Freq} {duty : Duty}
    (hd : duty = .on ∨ duty = .off ∨ duty = .any) {ru rv rx : Rat} (hru : u.countPeriods tb freq duty (some s) = .ok ru)
    (hrv : v.countPeriods tb freq duty (some s) = .ok rv) (hrx : x.countPeriods tb freq duty (some s) = .ok rx) :
    rx = ru + rv := by
  have hval := h.valid
  have hos : tb.OwnsOpt (some s) := by intro y hy; cases hy; exact hs
  have fu := hu.fine hval
  have fv := hv.fine hval
  have fx := hx.fine hval
  obtain ⟨eu, _⟩ := fu.countPeriods_val h hos hd hru
  obtain ⟨ev, _⟩ := fv.countPeriods_val h hos hd hrv
  obtain ⟨ex, _⟩ := fx.countPeriods_val h hos hd hrx
  simp only [Option.getD_some] at eu ev ex
  simp only [fu.contains_iff hval, fv.contains_iff hval, fx.contains_iff hval] at hdis hun
  have key : ∀ f : Int → Rat, ((tb.dutyPositions s.selector duty x.lo x.hi).map f).sum =
      ((tb.dutyPositions s.selector duty u.lo u.hi).map f).sum + ((tb.dutyPositions s.selector duty v.lo v.hi).map f).sum := by
    intro f
    rw [Timeboard.dutyPositions_eq_filter fx.nonneg.1 fx.lt.2, Timeboard.dutyPositions_eq_filter fu.nonneg.1 fu.lt.2,
      Timeboard.dutyPositions_eq_filter fv.nonneg.1 fv.lt.2]
    induction tb.allDuty s duty with
    | nil => simp only [List.filter_nil, List.map_nil, List.sum_nil]; grind
    | cons k ks ih =>
      have h1 := hun k
      have h2 := hdis k
      by_cases hku : u.lo ≤ k ∧ k ≤ u.hi
      · have hkv : ¬ (v.lo ≤ k ∧ k ≤ v.hi) := fun hy => h2 ⟨hku, hy⟩
        have hkx := h1.2 (.inl hku)
        rw [List.filter_cons_of_pos (by simpa using hkx), List.filter_cons_of_pos (by simpa using hku),
          List.filter_cons_of_neg (by simpa using hkv)]
        simp only [List.map_cons, List.sum_cons, ih]; grind
      · by_cases hkv : v.lo ≤ k ∧ k ≤ v.hi
        · have hkx := h1.2 (.inr hkv)
          rw [List.filter_cons_of_pos (by simpa using hkx), List.filter_cons_of_neg (by simpa using hku),
            List.filter_cons_of_pos (by simpa using hkv)]
          simp only [List.map_cons, List.sum_cons, ih]; grind
        · have hkx : ¬ (x.lo ≤ k ∧ k ≤ x.hi) := fun hy => (h1.1 hy).elim hku hkv
          rw [List.filter_cons_of_neg (by simpa using hkx), List.filter_cons_of_neg (by simpa using hku),
            List.filter_cons_of_neg (by simpa using hkv), ih]
  rw [eu, ev, ex]
  exact key _

/-- **C29.** An interval which consists of exactly the workshifts of a calendar period, some of which have the duty,
counts as 1. -/
theorem C29_whole_period {tb : Timeboard L} (h : tb.Reachable) {v : Interval L} (hi : tb.HasInterval v) {sch : Option (Schedule L)}
    (hs : tb.OwnsOpt sch) {freq : Freq} {duty : Duty} (hd : duty = .on ∨ duty = .off ∨ duty = .any) {r : Rat}
    (hr : v.countPeriods tb freq duty sch = .ok r) {o : Int} (hin : ∀ k, v.Contains tb k ↔ tb.RefIn ⟨freq, o⟩ k)
    (hsome : ∃ k, v.Contains tb k ∧ tb.DutyAt (sch.getD v.schedule) duty k) : r = 1 := by
  have hval := h.valid
  have hf := hi.fine hval
  obtain ⟨c1, _, c3⟩ := C28_sum_of_ratios h hi hs hd hr
  obtain ⟨_, hcase⟩ := hf.countPeriods_val h hs hd hr
  obtain ⟨k, hk1, hk2⟩ := hsome
  have hm : freq.mult = 1 := by
    rcases hcase with hx | ⟨hsup, _⟩
    · rcases hf.shape with hp | hh
      · rw [hp.not_void] at hx; cases hx
      · rw [hf.contains_iff hval] at hk1
        have := hh.hi_lt_lo; omega
    · exact supportedPeriod_mult hsup
  generalize sch.getD v.schedule = s at *
  have hsame : tb.partOf v s duty ⟨freq, o⟩ = tb.wholeOf s duty ⟨freq, o⟩ := by
    unfold Timeboard.partOf Timeboard.wholeOf
    congr 1
    funext j
    rw [hin j]
    apply propext
    constructor
    · exact fun q => q.2
    · exact fun q => ⟨q.2, q⟩
  have hpos : tb.partOf v s duty ⟨freq, o⟩ ≠ 0 := by
    rw [hf.partOf_eq hval hm]
    unfold Timeboard.num
    intro hx
    have hnil := List.eq_nil_of_length_eq_zero hx
    have hmem : k ∈ (tb.dutyPositions s.selector duty v.lo v.hi).filter (fun j => decide (tb.per freq j = o)) := by
      rw [List.mem_filter, decide_eq_true_eq, hval.mem_dutyPositions_iff hf.nonneg.1 hf.lt.2]
      have hc := (hf.contains_iff hval k).1 hk1
      exact ⟨⟨hc.1, hc.2, hk2⟩, ((hval.refIn_per hm).1 ((hin k).1 hk1)).2.2⟩
    rw [hnil] at hmem; simp at hmem
  have honly : ∀ o', tb.partOf v s duty ⟨freq, o'⟩ ≠ 0 → o' ∈ [o] := by
    intro o' ho'
    rw [hf.partOf_eq hval hm] at ho'
    unfold Timeboard.num at ho'
    obtain ⟨j, hj⟩ := List.exists_mem_of_length_pos (Nat.pos_of_ne_zero ho')
    rw [List.mem_filter, decide_eq_true_eq, hval.mem_dutyPositions_iff hf.nonneg.1 hf.lt.2] at hj
    have := (hval.refIn_per hm).1 ((hin j).1 ((hf.contains_iff hval j).2 ⟨hj.1.1, hj.1.2.1⟩))
    rw [List.mem_singleton, ← hj.2, this.2.2]
  rw [c1 [o] (by simp) honly]
  rw [hsame] at hpos
  simp only [List.map_cons, List.map_nil, List.sum_cons, List.sum_nil, hsame]
  have hne : ((tb.wholeOf s duty ⟨freq, o⟩ : Nat) : Rat) ≠ 0 := by exact_mod_cast hpos
  grind

/-- **C29.** The count is never negative; it is at most 1 for an interval with all workshifts in one calendar period. -/
theorem C29_bounds {tb : Timeboard L} (h : tb.Reachable) {v : Interval L} (hi : tb.HasInterval v) {sch : Option (Schedule L)}
    (hs : tb.OwnsOpt sch) {freq : Freq} {duty : Duty} (hd : duty = .on ∨ duty = .off ∨ duty = .any) {r : Rat}
    (hr : v.countPeriods tb freq duty sch = .ok r) :
    0 ≤ r ∧ ((∃ o, ∀ k, v.Contains tb k → tb.RefIn ⟨freq, o⟩ k) → r ≤ 1) := by
  have hval := h.valid
  have hf := hi.fine hval
  obtain ⟨c1, _, _⟩ := C28_sum_of_ratios h hi hs hd hr
  obtain ⟨e, hcase⟩ := hf.countPeriods_val h hs hd hr
  refine ⟨by rw [e]; exact Timeboard.weight_nonneg _ _ _ _ _, ?_⟩
  rintro ⟨o, hin⟩
  rcases hcase with hx | ⟨hsup, hp⟩
  · unfold Interval.countPeriods at hr
    rw [hx] at hr
    simp only [if_true, Except.ok.injEq] at hr
    rw [← hr]; decide
  · have hm := supportedPeriod_mult hsup
    generalize sch.getD v.schedule = s at *
    have honly : ∀ o', tb.partOf v s duty ⟨freq, o'⟩ ≠ 0 → o' ∈ [o] := by
      intro o' ho'
      rw [hf.partOf_eq hval hm] at ho'
      unfold Timeboard.num at ho'
      obtain ⟨j, hj⟩ := List.exists_mem_of_length_pos (Nat.pos_of_ne_zero ho')
      rw [List.mem_filter, decide_eq_true_eq, hval.mem_dutyPositions_iff hf.nonneg.1 hf.lt.2] at hj
      have := (hval.refIn_per hm).1 (hin j ((hf.contains_iff hval j).2 ⟨hj.1.1, hj.1.2.1⟩))
      rw [List.mem_singleton, ← hj.2, this.2.2]
    rw [c1 [o] (by simp) honly]
    simp only [List.map_cons, List.map_nil, List.sum_cons, List.sum_nil, Rat.add_zero]
    have hle : tb.partOf v s duty ⟨freq, o⟩ ≤ tb.wholeOf s duty ⟨freq, o⟩ := by
      rw [hf.partOf_eq hval hm, hval.wholeOf_eq hm]
      unfold Timeboard.num Timeboard.den
      rw [Timeboard.dutyPositions_eq_filter hf.nonneg.1 hf.lt.2]
      exact (List.filter_sublist.filter _).length_le
    by_cases hz : tb.wholeOf s duty ⟨freq, o⟩ = 0
    · have : tb.partOf v s duty ⟨freq, o⟩ = 0 := by omega
      rw [hz, this]; decide +kernel
    · have := ratio_le_one (n := (tb.partOf v s duty ⟨freq, o⟩ : Int)) (d := (tb.wholeOf s duty ⟨freq, o⟩ : Int)) (by omega) (by omega)
      rwa [Rat.intCast_natCast, Rat.intCast_natCast] at this

/-! Examples. On the standard week: 5 to 17 January over three weeks, split into two adjacent intervals, a whole week; the
first week sticks out of the timeboard, which matters only if there is something to count; hours are shorter than workshifts. -/
example : ((Interval.new week (4, 16)).bind (fun v => v.countPeriods week fW .on)) = .ok ((3 : Rat) / 5 + 1 + 2 / 5) ∧
    ((Interval.new week (4, 16)).bind (fun v => v.countPeriods week fW .on)) = .ok 2 ∧
    ((Interval.new week (4, 6)).bind (fun v => v.countPeriods week fW .on)) = .ok ((2 : Rat) / 5) ∧
    ((Interval.new week (7, 16)).bind (fun v => v.countPeriods week fW .on)) = .ok ((8 : Rat) / 5) ∧
    ((Interval.new week (1, 7)).bind (fun v => v.countPeriods week fW .on)) = .ok 1 ∧
    ((Interval.new week (0, 3)).bind (fun v => v.countPeriods week fW .on)) = .error .partialOutOfBounds ∧
    ((Interval.new week (0, 0)).bind (fun v => v.countPeriods week fW .on)) = .ok 0 ∧
    ((Interval.new week (0, 3)).bind (fun v => v.countPeriods week fH .any)) = .error .unacceptablePeriod ∧
    ((Interval.new week (0, 30)).bind (fun v => v.countPeriods week fM .off)) = .ok 1 := by decide +kernel

/-- Compound shifts referred to by their ends: the shift from 31 October 18:00 to 1 November 8:00 counts for 1 November. -/
example : ((Interval.new shifts (2, 3)).bind (fun v => v.countPeriods shifts fD .any)) = .ok ((1 : Rat) / 2 + 1 / 2) ∧
    ((Interval.new shifts (2, 3)).bind (fun v => v.countPeriods shifts fD .on)) = .ok 2 ∧
    ((Interval.new shifts (1, 3)).bind (fun v => v.countPeriods shifts fD .any)) = .error .partialOutOfBounds := by decide +kernel

end TB
