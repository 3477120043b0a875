import Verif.Lemmas.Floats
import Verif.Lemmas.Float64
import Verif.Props.CountPeriods
import Verif.Props.Monotone
/-! Property C95: results computed with floating point numbers. -/
namespace TB
open TB.Ex
variable {L : Type}

/-! ### Failures -/

/-- Both succeed, or both fail in the same way. -/
def SameFailure {α β : Type} (a : Except Err α) (b : Except Err β) : Prop :=
  (∃ x y, a = .ok x ∧ b = .ok y) ∨ ∃ e, a = .error e ∧ b = .error e

theorem SameFailure.ok {α β : Type} (x : α) (y : β) : SameFailure (.ok x) (.ok y) := .inl ⟨x, y, rfl, rfl⟩

theorem SameFailure.bind {α β γ : Type} (a : Except Err α) {f : α → Except Err β} {g : α → Except Err γ} (h : ∀ x, SameFailure (f x) (g x)) :
    SameFailure (a.bind f) (a.bind g) := by
  cases a with
  | error e => exact .inr ⟨e, rfl, rfl⟩
  | ok x => exact h x

theorem SameFailure.bind2 {α α' β γ : Type} {a : Except Err α} {a' : Except Err α'} (ha : SameFailure a a')
    {f : α → Except Err β} {g : α' → Except Err γ} (h : ∀ x y, SameFailure (f x) (g y)) : SameFailure (a.bind f) (a'.bind g) := by
  rcases ha with ⟨x, y, rfl, rfl⟩ | ⟨e, rfl, rfl⟩
  · exact h x y
  · exact .inr ⟨e, rfl, rfl⟩

theorem floatDiv_same (fl : Rat → Rat) (x y : Int) : SameFailure (pyDiv x y) (floatDiv fl x y) := by
  unfold pyDiv floatDiv
  split
  · exact .inr ⟨_, rfl, rfl⟩
  · exact .ok _ _

theorem floatPeriodsBody_same (fl : Rat → Rat) (v : Interval L) (tb : Timeboard L) (freq : Freq) (duty : Duty) (s : Schedule L) (F : Frame) (a b : Time) :
    SameFailure (v.countPeriodsBody tb freq duty s F a b) (v.floatPeriodsBody fl tb freq duty s F a b) := by
  unfold Interval.countPeriodsBody Interval.floatPeriodsBody
  refine .bind _ fun es => .bind _ fun i0 => .bind _ fun i1 => ?_
  split
  · exact .bind _ fun e0 => .bind _ fun c => floatDiv_same fl _ _
  · refine .bind _ fun e0 => .bind _ fun t0 => .bind _ fun v0 => .bind _ fun c0 => .bind2 (floatDiv_same fl _ _) fun q0 q0' =>
      .bind _ fun e1 => .bind _ fun t1 => .bind _ fun v1 => .bind _ fun c1 => .bind2 (floatDiv_same fl _ _) fun q1 q1' => ?_
    split
    · exact .bind _ fun n => .ok _ _
    · exact .ok _ _

theorem floatPeriods_same (fl : Rat → Rat) (v : Interval L) (tb : Timeboard L) (freq : Freq) (duty : Duty) (sch : Option (Schedule L)) :
    SameFailure (v.countPeriods tb freq duty sch) (v.floatPeriods fl tb freq duty sch) := by
  unfold Interval.countPeriods Interval.floatPeriods
  split
  · exact .ok _ _
  · split
    · exact .inr ⟨_, rfl, rfl⟩
    · refine .bind _ fun a => .bind _ fun b => .bind _ fun F => ?_
      simp only
      generalize v.first tb duty (some (sch.getD v.schedule)) = A
      generalize v.last tb duty (some (sch.getD v.schedule)) = B
      cases A with
      | error e => cases e <;> first | exact .ok _ _ | exact .inr ⟨_, rfl, rfl⟩
      | ok w0 =>
        cases B with
        | error e => cases e <;> first | exact .ok _ _ | exact .inr ⟨_, rfl, rfl⟩
        | ok w1 => exact .bind _ fun x => .bind _ fun y => floatPeriodsBody_same ..

/-! ### Bounds -/

theorem unit_le_one (p : Nat) : 0 < (1 : Rat) / 2 ^ p ∧ (1 : Rat) / 2 ^ p ≤ 1 := by
  have h : (1 : Rat) ≤ 2 ^ p := by
    induction p with
    | zero => rw [Rat.pow_zero]; exact Rat.le_refl
    | succ n ih => rw [Rat.pow_succ]; grind
  have hp : (0 : Rat) < 2 ^ p := by grind
  have e : (1 : Rat) / 2 ^ p * 2 ^ p = 1 := Rat.div_mul_cancel (by grind)
  constructor
  · rw [Rat.div_def, Rat.one_mul]
    exact Rat.inv_pos.2 hp
  · refine Rat.not_lt.1 (fun hlt => ?_)
    have := Rat.mul_lt_mul_of_pos_right hlt hp
    grind

/-- `x` is `q` up to the relative error of `n` roundings. -/
def Near (p n : Nat) (q x : Rat) : Prop := (1 - 1 / 2 ^ p) ^ n * q ≤ x ∧ x ≤ (1 + 1 / 2 ^ p) ^ n * q

theorem Near.refl (p : Nat) (q : Rat) : Near p 0 q q := by
  unfold Near
  rw [Rat.pow_zero, Rat.pow_zero, Rat.one_mul]
  exact ⟨Rat.le_refl, Rat.le_refl⟩

theorem Near.succ {p n : Nat} {q x : Rat} (h : Near p n q x) (hq : 0 ≤ q) : Near p (n + 1) q x := by
  obtain ⟨u0, u1⟩ := unit_le_one p
  unfold Near at h ⊢
  generalize (1 : Rat) / 2 ^ p = u at u0 u1 h ⊢
  obtain ⟨h1, h2⟩ := h
  have a : 0 ≤ (1 - u) ^ n * q := Rat.mul_nonneg (Rat.pow_nonneg (by grind)) hq
  have b : 0 ≤ (1 + u) ^ n * q := Rat.mul_nonneg (Rat.pow_nonneg (by grind)) hq
  have a' := Rat.mul_nonneg a (Rat.le_of_lt u0)
  have b' := Rat.mul_nonneg b (Rat.le_of_lt u0)
  rw [Rat.pow_succ, Rat.pow_succ]
  constructor <;> grind

theorem Near.le {p n m : Nat} {q x : Rat} (h : Near p n q x) (hq : 0 ≤ q) (hnm : n ≤ m) : Near p m q x := by
  obtain ⟨k, rfl⟩ := Nat.exists_eq_add_of_le hnm
  clear hnm
  induction k with
  | zero => exact h
  | succ k ih => exact ih.succ hq

theorem Near.add {p n : Nat} {q q' x x' : Rat} (h : Near p n q x) (h' : Near p n q' x') : Near p n (q + q') (x + x') := by
  obtain ⟨a1, a2⟩ := h
  obtain ⟨b1, b2⟩ := h'
  constructor <;> rw [Rat.mul_add] <;> grind

theorem Near.nonneg {p n : Nat} {q x : Rat} (h : Near p n q x) (hq : 0 ≤ q) : 0 ≤ x := by
  obtain ⟨u0, u1⟩ := unit_le_one p
  have a : 0 ≤ (1 - 1 / 2 ^ p) ^ n * q := Rat.mul_nonneg (Rat.pow_nonneg (by grind)) hq
  have := h.1
  grind

theorem Near.pos {p n : Nat} (hp : p ≠ 0) {q x : Rat} (h : Near p n q x) (hq : 0 < q) : 0 < x := by
  obtain ⟨k, rfl⟩ := Nat.exists_eq_succ_of_ne_zero hp
  obtain ⟨u0, u1⟩ := unit_le_one k
  have e : (1 : Rat) / 2 ^ (k + 1) = 1 / 2 ^ k / 2 := by
    rw [Rat.pow_succ, Rat.div_def, Rat.div_def, Rat.div_def, Rat.inv_mul_rev]; grind
  have a : 0 < (1 - 1 / 2 ^ (k + 1)) ^ n * q := Rat.mul_pos (Rat.pow_pos (by rw [e]; grind)) hq
  have := h.1
  have h' : (1 - 1 / 2 ^ (k + 1)) ^ n * q ≤ x := this
  grind

theorem Near.round {fl : Rat → Rat} {p n : Nat} (hfl : Rounding fl p) {q x : Rat} (h : Near p n q x) (hq : 0 ≤ q) : Near p (n + 1) q (fl x) := by
  obtain ⟨u0, u1⟩ := unit_le_one p
  have hx := h.nonneg hq
  obtain ⟨f1, f2⟩ := hfl.near x hx
  unfold Near at h ⊢
  generalize (1 : Rat) / 2 ^ p = u at u0 u1 h f1 f2 ⊢
  obtain ⟨h1, h2⟩ := h
  have a := Rat.mul_le_mul_of_nonneg_left h1 (show 0 ≤ 1 - u by grind)
  have b := Rat.mul_le_mul_of_nonneg_left h2 (show 0 ≤ 1 + u by grind)
  rw [Rat.pow_succ, Rat.pow_succ]
  constructor <;> grind

theorem ratio_nat_nonneg (n d : Nat) : 0 ≤ (n : Rat) * (1 / (d : Rat)) := by
  have := Rat.mul_nonneg (a := (n : Rat)) (b := ((d : Int) : Rat)⁻¹) (by exact_mod_cast Nat.zero_le n) (inv_nat_nonneg d)
  rw [Rat.intCast_natCast] at this
  rw [Rat.div_def, Rat.one_mul]
  exact this

theorem ratio_nat_self {n : Nat} (h : 0 < n) : (n : Rat) * (1 / (n : Rat)) = 1 := by
  have : (n : Rat) ≠ 0 := by exact_mod_cast (show n ≠ 0 by omega)
  grind

theorem FloatShape.near {fl : Rat → Rat} {p : Nat} (hfl : Rounding fl p) {tb : Timeboard L} {s : Schedule L} {duty : Duty} {freq : Freq} {lo hi : Int}
    {x : Rat} (h : FloatShape fl tb s duty freq lo hi x) : Near p 3 (tb.weight s duty freq lo hi) x := by
  cases h with
  | one o _ _ hw =>
    rw [hw]
    have h0 := ratio_nat_nonneg (tb.num s duty freq lo hi o) (tb.den s duty freq o)
    exact ((Near.refl p _).round hfl h0).le h0 (by omega)
  | many p0 p1 n _ _ _ _ _ _ hn hw =>
    rw [hw]
    have a := ratio_nat_nonneg (tb.num s duty freq lo hi p0) (tb.den s duty freq p0)
    have b := ratio_nat_nonneg (tb.num s duty freq lo hi p1) (tb.den s duty freq p1)
    have c : (0 : Rat) ≤ (n : Rat) := Rat.intCast_nonneg.2 hn
    have r := ((((Near.refl p _).round hfl a).add ((Near.refl p _).round hfl b)).round hfl (by grind)).add ((Near.refl p (n : Rat)).le c (m := 2) (by omega))
    exact r.round hfl (by grind)

/-! ### C95 -/

/-- **C95.** The usual floating point numbers satisfy all that is supposed about rounding below, with 53 binary digits. -/
theorem C95_float64 : Rounding float64 53 := float64_rounding

/-- **C95**, `count_periods`: with rounding it fails exactly when, and exactly as, it does with exact arithmetic.  Otherwise the
result differs from the exact one by the relative error of at most three roundings; it is 0 only if the exact one is;
it is the exact one rounded, and does not exceed 1, when all workshifts with the duty are in one calendar period; and it is exact if
every calendar period has either all or none of its workshifts with the duty in the interval. -/
theorem C95_periods {fl : Rat → Rat} {p : Nat} (hfl : Rounding fl p) (hp0 : p ≠ 0) {tb : Timeboard L} (h : tb.Reachable) {v : Interval L} (hi : tb.HasInterval v)
    {sch : Option (Schedule L)} (hs : tb.OwnsOpt sch) (freq : Freq) {duty : Duty} (hd : duty = .on ∨ duty = .off ∨ duty = .any) :
    (∃ e, v.countPeriods tb freq duty sch = .error e ∧ v.floatPeriods fl tb freq duty sch = .error e) ∨
    ∃ q x, v.countPeriods tb freq duty sch = .ok q ∧ v.floatPeriods fl tb freq duty sch = .ok x ∧
      (1 - 1 / 2 ^ p) ^ 3 * q ≤ x ∧ x ≤ (1 + 1 / 2 ^ p) ^ 3 * q ∧ (x = 0 ↔ q = 0) ∧
      ((∃ o, ∀ k, v.Contains tb k → tb.DutyAt (sch.getD v.schedule) duty k → tb.RefIn ⟨freq, o⟩ k) → x = fl q ∧ x ≤ 1) ∧
      ((∀ o, tb.partOf v (sch.getD v.schedule) duty ⟨freq, o⟩ = 0 ∨
        tb.partOf v (sch.getD v.schedule) duty ⟨freq, o⟩ = tb.wholeOf (sch.getD v.schedule) duty ⟨freq, o⟩) → q ≤ 2 ^ p → x = q) := by
  have hvd := h.valid
  have hf := hi.fine hvd
  have ho := owns_getD_fine hf hs
  rcases floatPeriods_same fl v tb freq duty sch with ⟨q, x, hq, hx⟩ | ⟨e, h1, h2⟩
  · right
    refine ⟨q, x, hq, hx, ?_⟩
    obtain ⟨eq, hcase⟩ := hf.countPeriods_val h hs hd hq
    rcases hf.shape with hp | hh
    · have hsup : supportedPeriod freq = true := by
        rcases hcase with hv | hv
        · rw [hp.not_void] at hv; cases hv
        · exact hv.1
      have hm := supportedPeriod_mult hsup
      have hlo := hp.lo_nonneg
      have hhi := hp.hi_lt
      have hlohi := hp.lo_le_hi
      have ha : v.startTime tb = .ok (some (tb.timeline.frame.unitStart (tb.timeline.bnd v.lo))) := by
        unfold Interval.startTime
        rw [hp.not_void, hvd.wf.wsStart_eq hlo (by omega)]; rfl
      have hb : v.endTime tb = .ok (some (tb.timeline.frame.unitStart (tb.timeline.bnd (v.hi + 1)) - 1)) := by
        unfold Interval.endTime
        rw [hp.not_void, hvd.wf.wsEnd_eq (by omega) hhi]; rfl
      have epart := fun o => hf.partOf_eq hvd (s := sch.getD v.schedule) (duty := duty) hm o
      have ewhole := fun o => hvd.wholeOf_eq (s := sch.getD v.schedule) (duty := duty) hm o
      rcases hp.floatPeriods_shape hfl h ho hsup hd ha hb with ⟨c1, c2⟩ | ⟨_, _, x', c2, c3⟩ | ⟨_, o, e, _, _, _, c2⟩
      · rw [hx] at c2; cases c2
        have q0 : q = 0 := by rw [eq]; unfold Timeboard.weight; rw [c1]; rfl
        subst q0
        simp only [Rat.mul_zero, hfl.zero]
        exact ⟨Rat.le_refl, Rat.le_refl, trivial, fun _ => ⟨trivial, by decide⟩, fun _ _ => trivial⟩
      · rw [hx] at c2; cases c2
        have near := c3.near hfl
        rw [← eq] at near
        have hq0 : 0 ≤ q := by
          rw [eq]
          cases c3 with
          | one o _ _ hw => rw [hw]; exact ratio_nat_nonneg _ _
          | many p0 p1 n _ _ _ _ _ _ hn hw =>
            rw [hw]
            have a := ratio_nat_nonneg (tb.num (sch.getD v.schedule) duty freq v.lo v.hi p0) (tb.den (sch.getD v.schedule) duty freq p0)
            have b := ratio_nat_nonneg (tb.num (sch.getD v.schedule) duty freq v.lo v.hi p1) (tb.den (sch.getD v.schedule) duty freq p1)
            have c : (0 : Rat) ≤ (n : Rat) := Rat.intCast_nonneg.2 hn
            grind
        refine ⟨near.1, near.2, ⟨?_, ?_⟩, ?_, ?_⟩
        · intro hz
          rcases rat_trichotomy q 0 with hlt | heq | hgt
          · grind
          · exact heq
          · have := near.pos hp0 hgt; grind
        · intro hz
          have := near.nonneg hq0
          have := near.2
          subst hz
          grind
        · rintro ⟨o, hone⟩
          have hper : ∀ o', 0 < tb.num (sch.getD v.schedule) duty freq v.lo v.hi o' → o' = o := by
            intro o' hpos
            unfold Timeboard.num at hpos
            obtain ⟨k, hk⟩ := List.exists_mem_of_length_pos hpos
            rw [List.mem_filter, decide_eq_true_eq, hvd.mem_dutyPositions_iff hlo hhi] at hk
            have := hone k ((hf.contains_iff hvd k).2 ⟨hk.1.1, hk.1.2.1⟩) hk.1.2.2
            rw [hvd.refIn_per hm] at this
            omega
          cases c3 with
          | one o' ho' hd' hw =>
            refine ⟨by rw [eq, hw], ?_⟩
            have hle : tb.num (sch.getD v.schedule) duty freq v.lo v.hi o' ≤ tb.den (sch.getD v.schedule) duty freq o' := by
              unfold Timeboard.num Timeboard.den
              rw [Timeboard.dutyPositions_eq_filter hlo hhi]
              exact (List.filter_sublist.filter _).length_le
            have e1 := ratio_nat_self hd'
            have h1 : (0 : Rat) ≤ 1 / (tb.den (sch.getD v.schedule) duty freq o' : Rat) := by
              have := ratio_nat_nonneg 1 (tb.den (sch.getD v.schedule) duty freq o')
              grind
            have key := Rat.mul_le_mul_of_nonneg_right (Rat.natCast_le_natCast.2 hle) h1
            rw [e1] at key
            have := hfl.mono _ _ key
            rwa [hfl.one] at this
          | many p0 p1 n hlt _ n0 n1 =>
            have := hper p0 n0
            have := hper p1 n1
            omega
        · intro hwhole hle
          simp only [epart, ewhole] at hwhole
          cases c3 with
          | one o' ho' hd' hw =>
            rcases hwhole o' with hz | hz
            · rw [eq, hw, hz]
              rw [show ((0 : Nat) : Rat) = 0 from rfl, Rat.zero_mul, hfl.zero]
            · rw [eq, hw, hz, ratio_nat_self hd', hfl.one]
          | many p0 p1 n hlt _ n0 n1 d0 d1 hn hw =>
            have w0 : tb.num (sch.getD v.schedule) duty freq v.lo v.hi p0 = tb.den (sch.getD v.schedule) duty freq p0 := by
              rcases hwhole p0 with hz | hz
              · omega
              · exact hz
            have w1 : tb.num (sch.getD v.schedule) duty freq v.lo v.hi p1 = tb.den (sch.getD v.schedule) duty freq p1 := by
              rcases hwhole p1 with hz | hz
              · omega
              · exact hz
            rw [eq, hw] at hle ⊢
            rw [w0, w1, ratio_nat_self d0, ratio_nat_self d1] at hle ⊢
            have hle' : 1 + 1 + n ≤ (2 ^ p : Int) := by
              have e : (1 : Rat) + 1 + (n : Rat) = ((1 + 1 + n : Int) : Rat) := by rw [Rat.intCast_add, Rat.intCast_add]; rfl
              have e2 : (2 : Rat) ^ p = ((2 ^ p : Int) : Rat) := by rw [Rat.intCast_pow]; rfl
              rw [e, e2] at hle
              exact Rat.intCast_le_intCast.1 hle
            have hN : ((2 ^ p : Nat) : Int) = 2 ^ p := by rw [Int.natCast_pow]; rfl
            rw [hfl.one]
            have f2 : fl (1 + 1) = 1 + 1 := by
              have := hfl.int (n := 1 + 1) (by omega)
              rwa [Rat.intCast_add] at this
            have f3 := hfl.int (n := 1 + 1 + n) (by omega)
            rw [Rat.intCast_add, Rat.intCast_add] at f3
            rw [f2]
            exact f3
      · rw [hx] at c2; cases c2
    · have x0 : x = 0 := by
        unfold Interval.floatPeriods at hx
        rw [hh.void] at hx
        exact (Except.ok.inj hx).symm
      have q0 : q = 0 := by
        unfold Interval.countPeriods at hq
        rw [hh.void] at hq
        exact (Except.ok.inj hq).symm
      subst x0
      subst q0
      simp only [Rat.mul_zero, hfl.zero]
      exact ⟨Rat.le_refl, Rat.le_refl, trivial, fun _ => ⟨trivial, by decide⟩, fun _ _ => trivial⟩
  · exact .inl ⟨e, h1, h2⟩

/-- **C95**, `what_portion_of`: for all arguments, the outcome with rounding is that with exact arithmetic, rounded once. -/
theorem C95_portion_rounded {fl : Rat → Rat} {p : Nat} (hfl : Rounding fl p) (tb : Timeboard L) (u v : Interval L) (d : Duty) (s : Option (Schedule L)) :
    u.floatPortionOf fl tb v d s = (u.whatPortionOf tb v d s).map fl := by
  unfold Interval.floatPortionOf Interval.whatPortionOf
  split
  · show _ = Except.ok (fl 0); rw [hfl.zero]
  · simp only [bind, Except.bind, pure, Except.pure]
    cases u.overlap tb v (some (s.getD u.schedule)) with
    | error e => rfl
    | ok x =>
      simp only
      cases x.count tb d with
      | error e => rfl
      | ok c =>
        simp only
        split
        · show _ = Except.ok (fl 0); rw [hfl.zero]
        · cases v.count tb d (some (s.getD u.schedule)) with
          | error e => rfl
          | ok y =>
            simp only
            unfold floatDiv pyDiv
            split <;> rfl

/-- A ratio of integers which is less than another one. -/
theorem ratio_gap {a b c d : Int} (hb : 0 < b) (hd : 0 < d) (h : (a : Rat) / (b : Rat) < (c : Rat) / (d : Rat)) :
    (a : Rat) / (b : Rat) + 1 / ((b : Rat) * (d : Rat)) ≤ (c : Rat) / (d : Rat) := by
  have hb' : (0 : Rat) < (b : Rat) := Rat.intCast_pos.2 hb
  have hd' : (0 : Rat) < (d : Rat) := Rat.intCast_pos.2 hd
  have hbd := Rat.mul_pos hb' hd'
  have e1 : (a : Rat) / (b : Rat) * ((b : Rat) * (d : Rat)) = ((a * d : Int) : Rat) := by rw [Rat.intCast_mul]; grind
  have e2 : (c : Rat) / (d : Rat) * ((b : Rat) * (d : Rat)) = ((c * b : Int) : Rat) := by rw [Rat.intCast_mul]; grind
  have e3 : 1 / ((b : Rat) * (d : Rat)) * ((b : Rat) * (d : Rat)) = 1 := by grind
  have m := Rat.mul_lt_mul_of_pos_right h hbd
  rw [e1, e2] at m
  have m' : a * d < c * b := Rat.intCast_lt_intCast.1 m
  have m2 : ((a * d + 1 : Int) : Rat) ≤ ((c * b : Int) : Rat) := Rat.intCast_le_intCast.2 (by omega)
  rw [Rat.intCast_add] at m2
  refine Rat.not_lt.1 (fun hlt => ?_)
  have := Rat.mul_lt_mul_of_pos_right hlt hbd
  rw [Rat.add_mul, e1, e2, e3] at this
  have : ((1 : Int) : Rat) = 1 := rfl
  grind

theorem whatPortionOf_ratio {tb : Timeboard L} (h : tb.Reachable) {u v : Interval L} (hu : tb.HasInterval u) (hv : tb.HasInterval v)
    {s : Option (Schedule L)} (hs : tb.OwnsOpt s) {d : Duty} (hd : d = .on ∨ d = .off ∨ d = .any) :
    ∃ (q : Rat) (n c : Int), u.whatPortionOf tb v d s = .ok q ∧ v.count tb d (some (s.getD u.schedule)) = .ok c ∧
      0 ≤ q ∧ q ≤ 1 ∧ ∃ c', 0 < c' ∧ (c' = c ∨ c = 0 ∧ c' = 1) ∧ q = (n : Rat) / (c' : Rat) := by
  obtain ⟨wu, wv, q, h1, h2, h3, h4, h5, h6, _⟩ := C25_what_portion_of h hu hv hs hd
  have hc : v.count tb d (some (s.getD u.schedule)) = .ok (wv.length : Int) := by
    have fv := hv.fine h.valid
    have hsome : tb.OwnsOpt (some (s.getD u.schedule)) := by
      intro x hx; cases hx; exact owns_getD_fine (hu.fine h.valid) hs
    obtain ⟨w', e1, e2, _⟩ := fv.workshifts_spec h.valid hsome hd
    rw [h2] at e1; cases e1
    have := fv.count_eq h.valid hsome hd
    rw [this, ← e2, List.length_map]
  simp only at h4
  by_cases hz : (wv.filter (fun w => (wu.map (fun w => w.loc)).contains w.loc)).length = 0
  · rw [if_pos hz] at h4
    refine ⟨q, 0, _, h3, hc, h5, h6, ?_⟩
    by_cases hl : wv.length = 0
    · exact ⟨1, by omega, .inr ⟨by omega, rfl⟩, by rw [h4]; decide +kernel⟩
    · refine ⟨_, by omega, .inl rfl, ?_⟩
      rw [h4, Rat.div_def]
      show 0 = 0 * _
      rw [Rat.zero_mul]
  · rw [if_neg hz] at h4
    have := List.length_filter_le (fun w => (wu.map (fun w => w.loc)).contains w.loc) wv
    exact ⟨q, _, _, h3, hc, h5, h6, _, by omega, .inl rfl, h4⟩

/-- **C95**, `what_portion_of`: the rounded portion is a number from 0 to 1 and is off by the relative error of one rounding.  It is 0 iff
the exact portion is; it is 1 iff the exact portion is, provided that the second interval does not have more than
`2 ** p` workshifts with the duty. -/
theorem C95_portion {fl : Rat → Rat} {p : Nat} (hfl : Rounding fl p) (hp0 : p ≠ 0) {tb : Timeboard L} (h : tb.Reachable) {u v : Interval L} (hu : tb.HasInterval u)
    (hv : tb.HasInterval v) {s : Option (Schedule L)} (hs : tb.OwnsOpt s) {d : Duty} (hd : d = .on ∨ d = .off ∨ d = .any) :
    ∃ q x c, u.whatPortionOf tb v d s = .ok q ∧ u.floatPortionOf fl tb v d s = .ok x ∧ v.count tb d (some (s.getD u.schedule)) = .ok c ∧
      0 ≤ x ∧ x ≤ 1 ∧ (1 - 1 / 2 ^ p) * q ≤ x ∧ x ≤ (1 + 1 / 2 ^ p) * q ∧ (x = 0 ↔ q = 0) ∧ (c ≤ 2 ^ p → (x = 1 ↔ q = 1)) := by
  obtain ⟨q, n, c, h1, h2, h3, h4, c', h5, h6, h7⟩ := whatPortionOf_ratio h hu hv hs hd
  have hx := C95_portion_rounded hfl tb u v d s
  rw [h1] at hx
  have nr := (Near.refl p q).round hfl h3
  obtain ⟨f1, f2⟩ := hfl.near q h3
  refine ⟨q, fl q, c, h1, hx, h2, nr.nonneg h3, ?_, f1, f2, ⟨?_, ?_⟩, ?_⟩
  · rw [← hfl.one]; exact hfl.mono _ _ h4
  · intro hz
    rcases rat_trichotomy q 0 with hlt | heq | hgt
    · grind
    · exact heq
    · have := nr.pos hp0 hgt; grind
  · intro hz; rw [hz, hfl.zero]
  · intro hc
    refine ⟨?_, fun hz => by rw [hz, hfl.one]⟩
    intro hone
    rcases rat_trichotomy q 1 with hlt | heq | hgt
    · exfalso
      have e1 : (1 : Rat) = ((1 : Int) : Rat) / ((1 : Int) : Rat) := by decide +kernel
      rw [h7, e1] at hlt
      have gap := ratio_gap h5 (by omega) hlt
      rw [← h7, ← e1] at gap
      have c1 : c' ≤ 2 ^ p := by
        have : (1 : Int) ≤ 2 ^ p := by
          have := Nat.one_le_two_pow (n := p)
          have hN : ((2 ^ p : Nat) : Int) = 2 ^ p := by rw [Int.natCast_pow]; rfl
          omega
        omega
      have c2 : (c' : Rat) ≤ 2 ^ p := by
        have e2 : (2 : Rat) ^ p = ((2 ^ p : Int) : Rat) := by rw [Rat.intCast_pow]; rfl
        rw [e2]
        exact Rat.intCast_le_intCast.2 c1
      have cp : (0 : Rat) < (c' : Rat) := Rat.intCast_pos.2 h5
      have tp : (0 : Rat) < 2 ^ p := by grind
      have hu' : (1 : Rat) / 2 ^ p ≤ 1 / (c' : Rat) := by
        refine Rat.not_lt.1 (fun hlt => ?_)
        have m := Rat.mul_lt_mul_of_pos_right hlt (Rat.mul_pos cp tp)
        have e3 : 1 / (c' : Rat) * ((c' : Rat) * 2 ^ p) = 2 ^ p := by grind
        have e4 : (1 : Rat) / 2 ^ p * ((c' : Rat) * 2 ^ p) = (c' : Rat) := by grind
        grind
      have e5 : (c' : Rat) * ((1 : Int) : Rat) = (c' : Rat) := by
        show (c' : Rat) * 1 = _
        rw [Rat.mul_one]
      rw [e5] at gap
      obtain ⟨u0, u1⟩ := unit_le_one p
      generalize (1 : Rat) / 2 ^ p = e at *
      generalize (1 : Rat) / (c' : Rat) = g at *
      have m := Rat.mul_le_mul_of_nonneg_left (show q ≤ 1 - g by grind) (show 0 ≤ 1 + e by grind)
      have m2 : 0 < e * g := Rat.mul_pos u0 (by grind)
      grind
    · exact heq
    · grind

/-- **C95**, comparing portions: rounding never reverses their order, and different portions remain different if the product of the numbers
of workshifts of which they are portions is not over `2 ** (p - 1)` (for the usual floats, if the numbers are below 67 million). -/
theorem C95_portions_compared {fl : Rat → Rat} {p : Nat} (hfl : Rounding fl p) {tb tb' : Timeboard L} (h : tb.Reachable) (h' : tb'.Reachable)
    {u v u' v' : Interval L} (hu : tb.HasInterval u) (hv : tb.HasInterval v) (hu' : tb'.HasInterval u') (hv' : tb'.HasInterval v')
    {s s' : Option (Schedule L)} (hs : tb.OwnsOpt s) (hs' : tb'.OwnsOpt s') {d d' : Duty} (hd : d = .on ∨ d = .off ∨ d = .any)
    (hd' : d' = .on ∨ d' = .off ∨ d' = .any) :
    ∃ q x c q' x' c', u.whatPortionOf tb v d s = .ok q ∧ u.floatPortionOf fl tb v d s = .ok x ∧ v.count tb d (some (s.getD u.schedule)) = .ok c ∧
      u'.whatPortionOf tb' v' d' s' = .ok q' ∧ u'.floatPortionOf fl tb' v' d' s' = .ok x' ∧ v'.count tb' d' (some (s'.getD u'.schedule)) = .ok c' ∧
      (q ≤ q' → x ≤ x') ∧ (1 ≤ c → 1 ≤ c' → 2 * (c * c') ≤ 2 ^ p → q < q' → x < x') := by
  obtain ⟨q, n, c, h1, h2, h3, h4, k, h5, h6, h7⟩ := whatPortionOf_ratio h hu hv hs hd
  obtain ⟨q', n', c', h1', h2', h3', h4', k', h5', h6', h7'⟩ := whatPortionOf_ratio h' hu' hv' hs' hd'
  have hx := C95_portion_rounded hfl tb u v d s
  rw [h1] at hx
  have hx' := C95_portion_rounded hfl tb' u' v' d' s'
  rw [h1'] at hx'
  refine ⟨q, fl q, c, q', fl q', c', h1, hx, h2, h1', hx', h2', hfl.mono _ _, ?_⟩
  intro hc hc' hcc hlt
  have ek : k = c := by omega
  have ek' : k' = c' := by omega
  subst ek
  subst ek'
  have hlt' := hlt
  rw [h7, h7'] at hlt'
  have gap := ratio_gap h5 h5' hlt'
  rw [← h7, ← h7'] at gap
  obtain ⟨f1, f2⟩ := hfl.near q h3
  obtain ⟨g1, g2⟩ := hfl.near q' h3'
  have cp : (0 : Rat) < (k : Rat) * (k' : Rat) := Rat.mul_pos (Rat.intCast_pos.2 h5) (Rat.intCast_pos.2 h5')
  have c2 : 2 * ((k : Rat) * (k' : Rat)) ≤ 2 ^ p := by
    have e2 : (2 : Rat) ^ p = ((2 ^ p : Int) : Rat) := by rw [Rat.intCast_pow]; rfl
    have e3 : 2 * ((k : Rat) * (k' : Rat)) = ((2 * (k * k') : Int) : Rat) := by rw [Rat.intCast_mul, Rat.intCast_mul]; rfl
    rw [e2, e3]
    exact Rat.intCast_le_intCast.2 hcc
  have tp : (0 : Rat) < 2 ^ p := by grind
  have hu2 : 2 * ((1 : Rat) / 2 ^ p) ≤ 1 / ((k : Rat) * (k' : Rat)) := by
    generalize (k : Rat) * (k' : Rat) = m at *
    refine Rat.not_lt.1 (fun hlt => ?_)
    have mm := Rat.mul_lt_mul_of_pos_right hlt (Rat.mul_pos cp tp)
    have e3 : 1 / m * (m * 2 ^ p) = 2 ^ p := by grind
    have e4 : 2 * ((1 : Rat) / 2 ^ p) * (m * 2 ^ p) = 2 * m := by grind
    grind
  obtain ⟨u0, u1⟩ := unit_le_one p
  generalize (1 : Rat) / 2 ^ p = e at *
  generalize 1 / ((k : Rat) * (k' : Rat)) = g at *
  have m1 := Rat.mul_le_mul_of_nonneg_left (show q ≤ 1 - g by grind) (Rat.le_of_lt u0)
  have m2 := Rat.mul_le_mul_of_nonneg_left h4' (Rat.le_of_lt u0)
  have m3 := Rat.mul_pos u0 (show 0 < g by grind)
  grind

/-! ### Worktime -/

theorem perm_sum {xs ys : List Rat} (h : xs.Perm ys) : xs.sum = ys.sum := by
  induction h with
  | nil => rfl
  | cons x _ ih => simp only [List.sum_cons, ih]
  | swap x y l => simp only [List.sum_cons]; grind
  | trans _ _ ih1 ih2 => rw [ih1, ih2]

theorem sum_append_rat (xs ys : List Rat) : (xs ++ ys).sum = xs.sum + ys.sum := by
  induction xs with
  | nil => rw [List.nil_append, List.sum_nil, Rat.zero_add]
  | cons x xs ih => rw [List.cons_append, List.sum_cons, List.sum_cons, ih]; grind

theorem sum_nonneg_rat {xs : List Rat} (h : ∀ x ∈ xs, 0 ≤ x) : 0 ≤ xs.sum := by
  induction xs with
  | nil => exact Rat.le_refl
  | cons x xs ih =>
    rw [List.sum_cons]
    have := h x (by simp)
    have := ih (fun y hy => h y (by simp [hy]))
    grind

theorem AddedUp.near {fl : Rat → Rat} {p : Nat} (hfl : Rounding fl p) {qs : List Rat} {x : Rat} (h : AddedUp fl qs x) (h0 : ∀ q ∈ qs, 0 ≤ q) :
    Near p (qs.length - 1) qs.sum x := by
  induction h with
  | none => exact Near.refl p 0
  | one q =>
    rw [List.sum_cons, List.sum_nil, Rat.add_zero]
    exact Near.refl p q
  | @add xs ys zs x y hx hy _ _ hp ih1 ih2 =>
    have hx0 : ∀ q ∈ xs, 0 ≤ q := fun q hq => h0 q (hp.mem_iff.2 (List.mem_append.2 (.inl hq)))
    have hy0 : ∀ q ∈ ys, 0 ≤ q := fun q hq => h0 q (hp.mem_iff.2 (List.mem_append.2 (.inr hq)))
    have lx := List.length_pos_iff.2 hx
    have ly := List.length_pos_iff.2 hy
    have sx := sum_nonneg_rat hx0
    have sy := sum_nonneg_rat hy0
    have r := (((ih1 hx0).le sx (m := xs.length + ys.length - 2) (by omega)).add ((ih2 hy0).le sy (m := xs.length + ys.length - 2) (by omega))).round hfl (by grind)
    rw [perm_sum hp, hp.length_eq, sum_append_rat, List.length_append]
    rwa [show xs.length + ys.length - 2 + 1 = xs.length + ys.length - 1 by omega] at r

theorem AddedUp.int {fl : Rat → Rat} {p : Nat} (hfl : Rounding fl p) {qs : List Rat} {x : Rat} (h : AddedUp fl qs x) {M : Nat}
    (h0 : ∀ q ∈ qs, ∃ m : Int, q = (m : Rat) ∧ m.natAbs ≤ M) (hle : qs.length * M ≤ 2 ^ p) :
    ∃ m : Int, x = (m : Rat) ∧ qs.sum = (m : Rat) ∧ m.natAbs ≤ qs.length * M := by
  induction h with
  | none => exact ⟨0, rfl, rfl, by simp⟩
  | one q =>
    obtain ⟨m, h1, h2⟩ := h0 q (by simp)
    exact ⟨m, h1, by rw [List.sum_cons, List.sum_nil, Rat.add_zero, h1], by simpa using h2⟩
  | @add xs ys zs x y hx hy _ _ hp ih1 ih2 =>
    have hx0 : ∀ q ∈ xs, _ := fun q hq => h0 q (hp.mem_iff.2 (List.mem_append.2 (.inl hq)))
    have hy0 : ∀ q ∈ ys, _ := fun q hq => h0 q (hp.mem_iff.2 (List.mem_append.2 (.inr hq)))
    rw [hp.length_eq, List.length_append, Nat.add_mul] at hle
    obtain ⟨m, a1, a2, a3⟩ := ih1 hx0 (by omega)
    obtain ⟨n, b1, b2, b3⟩ := ih2 hy0 (by omega)
    refine ⟨m + n, ?_, ?_, ?_⟩
    · rw [a1, b1, ← Rat.intCast_add]
      exact hfl.int (by omega)
    · rw [perm_sum hp, sum_append_rat, a2, b2, Rat.intCast_add]
    · rw [hp.length_eq, List.length_append, Nat.add_mul]; omega

theorem AddedUp.exists {fl : Rat → Rat} : ∀ qs : List Rat, ∃ x, AddedUp fl qs x
  | [] => ⟨_, .none⟩
  | [q] => ⟨_, .one q⟩
  | q :: r :: rs => by
    obtain ⟨x, hx⟩ := AddedUp.exists (fl := fl) (r :: rs)
    exact ⟨_, .add (by simp) (by simp) (.one q) hx (List.Perm.refl _)⟩

theorem sumNums_eq (num : L → Option Rat) : ∀ ls : List L,
    (∃ qs, ls.mapM num = some qs ∧ sumNums num ls = .ok qs.sum) ∨ (ls.mapM num = none ∧ sumNums num ls = .error .typeError)
  | [] => .inl ⟨[], rfl, rfl⟩
  | l :: ls => by
    rw [List.mapM_cons]
    unfold sumNums
    cases hl : num l with
    | none => exact .inr ⟨rfl, rfl⟩
    | some q =>
      rcases sumNums_eq num ls with ⟨qs, h1, h2⟩ | ⟨h1, h2⟩
      · rw [h1, h2]
        exact .inl ⟨q :: qs, rfl, by simp only [List.sum_cons]⟩
      · rw [h1, h2]; exact .inr ⟨rfl, rfl⟩

theorem mapM_some_mem {α β : Type} {f : α → Option β} : ∀ {xs : List α} {ys : List β}, xs.mapM f = some ys →
    ys.length = xs.length ∧ ∀ y ∈ ys, ∃ x ∈ xs, f x = some y
  | [], ys, h => by cases h; simp
  | x :: xs, ys, h => by
    rw [List.mapM_cons] at h
    cases hx : f x with
    | none => rw [hx] at h; cases h
    | some b =>
      rw [hx] at h
      cases hxs : xs.mapM f with
      | none => rw [hxs] at h; cases h
      | some bs =>
        rw [hxs] at h
        cases h
        obtain ⟨h1, h2⟩ := mapM_some_mem hxs
        refine ⟨by simp [h1], ?_⟩
        intro y hy
        rcases List.mem_cons.1 hy with rfl | hy
        · exact ⟨x, by simp, hx⟩
        · obtain ⟨z, hz1, hz2⟩ := h2 y hy
          exact ⟨z, by simp [hz1], hz2⟩

theorem mapM_ok_mem {α β : Type} {f : α → Except Err β} : ∀ {xs : List α} {ys : List β}, xs.mapM f = .ok ys →
    ys.length = xs.length ∧ ∀ y ∈ ys, ∃ x ∈ xs, f x = .ok y
  | [], ys, h => by cases h; simp
  | x :: xs, ys, h => by
    rw [List.mapM_cons] at h
    cases hx : f x with
    | error e => rw [hx] at h; cases h
    | ok b =>
      rw [hx] at h
      cases hxs : xs.mapM f with
      | error e => rw [hxs] at h; cases h
      | ok bs =>
        rw [hxs] at h
        cases h
        obtain ⟨h1, h2⟩ := mapM_ok_mem hxs
        refine ⟨by simp [h1], ?_⟩
        intro y hy
        rcases List.mem_cons.1 hy with rfl | hy
        · exact ⟨x, by simp, hx⟩
        · obtain ⟨z, hz1, hz2⟩ := h2 y hy
          exact ⟨z, by simp [hz1], hz2⟩

/-- **C95**, `worktime` taken from labels: there is a result in floating point iff there is an exact one.  In whichever order the labels are added, the
result of `n` labels which are not negative is off by at most the relative error of `n - 1` roundings, and the result of integer labels
not over `M` is exact as long as `n * M` is not over `2 ** p`. -/
theorem C95_worktime {fl : Rat → Rat} {p : Nat} (hfl : Rounding fl p) {tb : Timeboard L} (h : tb.Reachable) (hsrc : tb.worktimeSource = "labels")
    {v : Interval L} (hi : tb.HasInterval v) {s : Option (Schedule L)} (hs : tb.OwnsOpt s) (num : L → Option Rat) {d : Duty} (hd : d = .on ∨ d = .off ∨ d = .any) :
    ((∃ x, v.FloatWorktime fl tb num d s x) ↔ ∃ q, v.worktime tb num d s = .ok q) ∧
    (∀ x q, v.FloatWorktime fl tb num d s x → v.worktime tb num d s = .ok q → ∃ n : Nat, v.count tb d s = .ok (n : Int) ∧
      ((∀ k w a, v.Contains tb k → tb.DutyAt (s.getD v.schedule) d k → Workshift.new tb k = .ok w → num w.label = some a → 0 ≤ a) →
        (1 - 1 / 2 ^ p) ^ (n - 1) * q ≤ x ∧ x ≤ (1 + 1 / 2 ^ p) ^ (n - 1) * q) ∧
      (∀ M : Nat, (∀ k w a, v.Contains tb k → tb.DutyAt (s.getD v.schedule) d k → Workshift.new tb k = .ok w → num w.label = some a →
        ∃ m : Int, a = (m : Rat) ∧ m.natAbs ≤ M) → n * M ≤ 2 ^ p → x = q)) := by
  have hvd := h.valid
  have hf := hi.fine hvd
  have ho := owns_getD_fine hf hs
  have hcount := hf.count_eq hvd hs hd
  -- what both are made of
  have key : (∃ qs, (∀ x, v.FloatWorktime fl tb num d s x ↔ AddedUp fl qs x) ∧ v.worktime tb num d s = .ok qs.sum ∧
      qs.length = (tb.dutyPositions (s.getD v.schedule).selector d v.lo v.hi).length ∧
      ∀ a ∈ qs, ∃ k w, v.Contains tb k ∧ tb.DutyAt (s.getD v.schedule) d k ∧ Workshift.new tb k = .ok w ∧ num w.label = some a) ∨
      ((∀ x, ¬ v.FloatWorktime fl tb num d s x) ∧ ∃ e, v.worktime tb num d s = .error e) := by
    rcases hf.shape with hp | hh
    · unfold Interval.FloatWorktime Interval.worktime Interval.sumLabels
      simp only [hp.not_void, Bool.false_eq_true, if_false, hsrc, if_true]
      rcases hp.dutyIdx_spec hvd ho hd with ⟨idx, e1, e2⟩ | ⟨idx, a, b, e1, _, _, _, e2⟩
      · left
        refine ⟨[], ?_, ?_, ?_, by simp⟩
        · intro x
          simp only [e1]
          constructor
          · rintro rfl; exact .none
          · intro hx
            generalize hq : ([] : List Rat) = qs at hx
            cases hx with
            | none => rfl
            | one q => cases hq
            | add h1 _ _ _ hperm =>
              subst hq
              have := hperm.length_eq
              have := List.length_pos_iff.2 h1
              simp only [List.length_nil, List.length_append] at *
              omega
        · simp only [e1]; rfl
        · rw [e2]; rfl
      · simp only [e1, e2]
        have hlo := hp.lo_nonneg
        have hhi := hp.hi_lt
        obtain ⟨ls, hls⟩ := mapM_label_ok (tb := tb) (ks := tb.dutyPositions (s.getD v.schedule).selector d v.lo v.hi) (by
          intro k hk
          obtain ⟨h1, h2, _⟩ := Timeboard.mem_dutyPositions.1 hk
          obtain ⟨w, _, _, _, hl, _⟩ := Workshift.exists_of_range hvd none (k := k) (by omega) (by omega)
          exact ⟨_, hl⟩)
        obtain ⟨l1, l2⟩ := mapM_ok_mem hls
        simp only [hls]
        rcases sumNums_eq num ls with ⟨qs, h1, h2⟩ | ⟨h1, h2⟩
        · left
          obtain ⟨r1, r2⟩ := mapM_some_mem h1
          refine ⟨qs, ?_, h2, by omega, ?_⟩
          · intro x
            rw [h1]
            constructor
            · rintro ⟨qs', e, hx⟩; cases e; exact hx
            · intro hx; exact ⟨qs, rfl, hx⟩
          · intro a ha
            obtain ⟨l, hl1, hl2⟩ := r2 a ha
            obtain ⟨k, hk1, hk2⟩ := l2 l hl1
            have hk3 := (hvd.mem_dutyPositions_iff hlo hhi k).1 hk1
            obtain ⟨w, hw, _, _, hl, _⟩ := Workshift.exists_of_range hvd none (k := k) hk3.2.2.1 hk3.2.2.2.1
            rw [hk2] at hl
            refine ⟨k, w, (hf.contains_iff hvd k).2 ⟨hk3.1, hk3.2.1⟩, hk3.2.2, hw, ?_⟩
            rw [← Except.ok.inj hl]; exact hl2
        · right
          refine ⟨?_, _, h2⟩
          intro x hx
          obtain ⟨qs, e, _⟩ := hx
          rw [h1] at e; cases e
    · left
      refine ⟨[], ?_, ?_, ?_, by simp⟩
      · intro x
        unfold Interval.FloatWorktime
        rw [if_pos hh.void]
        constructor
        · rintro rfl; exact .none
        · intro hx
          generalize hq : ([] : List Rat) = qs at hx
          cases hx with
          | none => rfl
          | one q => cases hq
          | add h1 _ _ _ hperm =>
            subst hq
            have := hperm.length_eq
            have := List.length_pos_iff.2 h1
            simp only [List.length_nil, List.length_append] at *
            omega
      · unfold Interval.worktime; rw [if_pos hh.void]; rfl
      · rw [hh.dutyPositions_nil]; rfl
  rcases key with ⟨qs, k1, k2, k3, k4⟩ | ⟨k1, e, k2⟩
  · constructor
    · constructor
      · intro _; exact ⟨_, k2⟩
      · intro _
        obtain ⟨x, hx⟩ := AddedUp.exists (fl := fl) qs
        exact ⟨x, (k1 x).2 hx⟩
    · intro x q hx hq
      rw [k2] at hq; cases hq
      have hx := (k1 x).1 hx
      rw [← k3] at hcount
      refine ⟨_, hcount, ?_, ?_⟩
      · intro h0
        exact hx.near hfl (fun a ha => by obtain ⟨k, w, g1, g2, g3, g4⟩ := k4 a ha; exact h0 k w a g1 g2 g3 g4)
      · intro M h0 hle
        obtain ⟨m, m1, m2, _⟩ := hx.int hfl (fun a ha => by obtain ⟨k, w, g1, g2, g3, g4⟩ := k4 a ha; exact h0 k w a g1 g2 g3 g4) hle
        rw [m1, m2]
  · constructor
    · constructor
      · rintro ⟨x, hx⟩; exact absurd hx (k1 x)
      · rintro ⟨q, hq⟩; rw [k2] at hq; cases hq
    · intro x q hx; exact absurd hx (k1 x)

/-- `count_periods` on the standard week, exact and in floats. -/
def exPeriods (b : Int × Int) (f : Freq) : Except Err (Rat × Rat) := do
  let v ← Interval.new week b
  return (← v.countPeriods week f, ← v.floatPeriods float64 week f)

/-- **C95.** In floats the numbers of periods need not add up exactly: on the standard week 9 January is 1/5 of a working week, 10 and 11 January are
2/5 and the three days are 3/5, but `0.2 + 0.4 == 0.6` is false. -/
theorem C95_sums_inexact : ∃ x y z : Rat, exPeriods (8, 8) fW = .ok (1 / 5, x) ∧ exPeriods (9, 10) fW = .ok (2 / 5, y) ∧
    exPeriods (8, 10) fW = .ok (3 / 5, z) ∧ float64 (x + y) ≠ z := by
  refine ⟨float64 (1 / 5), float64 (2 / 5), float64 (3 / 5), ?_, ?_, ?_, ?_⟩ <;> decide +kernel

/-! Examples: the float nearest to 1/10; from 6 to 16 January there are 2/5 of a week (with a working Sunday), a whole week and 1/5 of
a week. -/

example : float64 (1 / 10) = 3602879701896397 / 36028797018963968 ∧ float64 (-1 / 10) = -3602879701896397 / 36028797018963968 ∧
    float64 (9007199254740993) = 9007199254740992 ∧ float64 (9007199254740995) = 9007199254740996 ∧ float64 (1 / 4) = 1 / 4 := by decide +kernel
example : exPeriods (5, 15) fW = .ok (8 / 5, float64 (float64 (float64 (2 / 5) + float64 (1 / 5)) + 1)) ∧ exPeriods (8, 14) fW = .ok (1, 1) := by decide +kernel

/-! On the board of shifts, whose labels are hours of work: any way to add them up in floats gives the exact worktime. -/

example : ∃ v, Interval.new shifts (0, 5) = .ok v ∧ shifts.HasInterval v ∧
    v.worktime shifts (fun l => some (l : Rat)) .any = .ok 32 ∧
    ∀ x, v.FloatWorktime float64 shifts (fun l => some (l : Rat)) .any none x → x = 32 := by
  have n : shifts.OwnsOpt none := by intro x hx; cases hx
  obtain ⟨v, hv⟩ : ∃ u, Interval.new shifts (0, 5) = .ok u := ⟨_, Interval.new_ok_iff.2 ⟨by decide +kernel, by decide +kernel, by decide +kernel, rfl⟩⟩
  have iv : shifts.HasInterval v := .new n hv
  have hw : v.worktime shifts (fun l => some (l : Rat)) .any = .ok 32 := by
    obtain ⟨_, _, _, rfl⟩ := Interval.new_ok_iff.1 hv
    decide +kernel
  refine ⟨v, hv, iv, hw, ?_⟩
  intro x hx
  obtain ⟨_, h2⟩ := C95_worktime C95_float64 shifts_reachable (by decide +kernel) iv n (fun l : Int => some (l : Rat)) (.inr (.inr rfl) : Duty.any = .on ∨ _)
  obtain ⟨m, hm, _, h4⟩ := h2 x 32 hx hw
  have hc : v.count shifts .any = .ok 6 := by
    obtain ⟨_, _, _, rfl⟩ := Interval.new_ok_iff.1 hv
    decide +kernel
  rw [hc] at hm
  have hm6 : m = 6 := by have := Except.ok.inj hm; omega
  subst hm6
  have hall : ∀ k ∈ intRange 0 shifts.timeline.len, (match shifts.timeline.label k with | .ok l => decide (l.natAbs ≤ 10) | .error _ => false) = true := by
    decide +kernel
  refine h4 10 ?_ (by decide)
  intro k w a _ hk hw ha
  have hl := hall k ((mem_intRange _ _ _).2 ⟨hk.1, hk.2.1⟩)
  obtain ⟨w', hw', _, _, hlab, _⟩ := Workshift.exists_of_range shifts_reachable.valid none hk.1 hk.2.1
  rw [hw] at hw'; cases hw'
  rw [hlab] at hl
  cases ha
  exact ⟨w.label, rfl, by simpa using hl⟩

end TB
