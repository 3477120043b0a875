import Verif.Props.Monotone
import Verif.Props.Additive
import Verif.Lemmas.Anchor
/-!
# Calculating with portions
-/
namespace TB

variable {L : Type}

/-- The intervals `vs` have no workshift in common, and together they have the workshifts of `w`. -/
def Interval.SplitInto (w : Interval L) (vs : List (Interval L)) (tb : Timeboard L) : Prop :=
  (∀ k, w.Contains tb k ↔ ∃ v ∈ vs, v.Contains tb k) ∧ vs.Pairwise (fun a b => ¬ ∃ k, a.Contains tb k ∧ b.Contains tb k)

/-- The number of workshifts with the duty at positions which satisfy `p`. -/
def Timeboard.tally (tb : Timeboard L) (sel : L → Bool) (d : Duty) (p : Int → Bool) : Nat :=
  ((tb.dutyPositions sel d 0 (tb.timeline.len - 1)).filter p).length

/-- The positions of an interval. -/
def Interval.has (v : Interval L) (k : Int) : Bool := decide (v.lo ≤ k ∧ k ≤ v.hi)

theorem Interval.Fine.has_iff {tb : Timeboard L} (hv : tb.Valid) {v : Interval L} (f : v.Fine tb) (k : Int) :
    v.has k = true ↔ v.Contains tb k := by
  rw [f.contains_iff hv]
  simp [Interval.has]

theorem Interval.Fine.positions_tally {tb : Timeboard L} {v : Interval L} (f : v.Fine tb) (sel : L → Bool) (d : Duty) :
    (tb.dutyPositions sel d v.lo v.hi).length = tb.tally sel d v.has := by
  unfold Timeboard.tally
  congr 1
  apply pairwise_lt_ext (tb.pairwise_dutyPositions _ _ _ _) ((tb.pairwise_dutyPositions _ _ _ _).filter _)
  intro k
  have := f.nonneg
  have := f.lt
  rw [List.mem_filter, Timeboard.mem_dutyPositions, Timeboard.mem_dutyPositions]
  simp only [Interval.has, decide_eq_true_eq]
  constructor
  · rintro ⟨h1, h2, h3⟩
    exact ⟨⟨by omega, by omega, h3⟩, h1, h2⟩
  · rintro ⟨⟨_, _, h3⟩, h1, h2⟩
    exact ⟨h1, h2, h3⟩

theorem tally_congr {tb : Timeboard L} {sel : L → Bool} {d : Duty} {p q : Int → Bool} (h : ∀ k, p k = q k) :
    tb.tally sel d p = tb.tally sel d q := by
  rw [show p = q from funext h]

theorem tally_or {tb : Timeboard L} {sel : L → Bool} {d : Duty} {p q : Int → Bool} (h : ∀ k, ¬ (p k = true ∧ q k = true)) :
    tb.tally sel d (fun k => p k || q k) = tb.tally sel d p + tb.tally sel d q := by
  unfold Timeboard.tally
  generalize tb.dutyPositions sel d 0 (tb.timeline.len - 1) = xs
  induction xs with
  | nil => rfl
  | cons x xs ih =>
    simp only [List.filter_cons]
    have hx := h x
    cases hp : p x <;> cases hq : q x <;> simp_all <;> omega

theorem tally_false {tb : Timeboard L} {sel : L → Bool} {d : Duty} : tb.tally sel d (fun _ => false) = 0 := by
  unfold Timeboard.tally; simp

theorem tally_mono {tb : Timeboard L} {sel : L → Bool} {d : Duty} {p q : Int → Bool} (h : ∀ k, p k = true → q k = true) :
    tb.tally sel d p ≤ tb.tally sel d q := by
  unfold Timeboard.tally
  generalize tb.dutyPositions sel d 0 (tb.timeline.len - 1) = xs
  induction xs with
  | nil => simp
  | cons x xs ih =>
    simp only [List.filter_cons]
    have hx := h x
    cases hp : p x <;> cases hq : q x <;> simp_all <;> omega

/-- The portion of an interval, in terms of tallies. -/
theorem Interval.Fine.portion_tally {tb : Timeboard L} (hvd : tb.Valid) {u v : Interval L} (fu : u.Fine tb) (fv : v.Fine tb)
    {s : Schedule L} (hs : tb.Owns s) {d : Duty} (hd : d = .on ∨ d = .off ∨ d = .any) :
    ∃ q : Rat, u.whatPortionOf tb v d (some s) = .ok q ∧ v.count tb d (some s) = .ok (tb.tally s.selector d v.has : Int) ∧
      q * (tb.tally s.selector d v.has : Rat) = (tb.tally s.selector d (fun k => u.has k && v.has k) : Rat) ∧
      (tb.tally s.selector d v.has = 0 → q = 0) := by
  have hso : tb.OwnsOpt (some s) := by intro x hx; cases hx; exact hs
  obtain ⟨x, h1, fx, hsch, hk, _⟩ := fu.overlap_ok fv hso
  have hxo : tb.OwnsOpt (none : Option (Schedule L)) := by intro y hy; cases hy
  have cx := fx.count_eq hvd hxo hd
  have cv := fv.count_eq hvd hso hd
  simp only [Option.getD_none, Option.getD_some] at cx cv hsch
  rw [hsch, fx.positions_tally] at cx
  rw [fv.positions_tally] at cv
  have hx : tb.tally s.selector d x.has = tb.tally s.selector d (fun k => u.has k && v.has k) := by
    apply tally_congr
    intro k
    simp only [Interval.has]
    rw [Bool.eq_iff_iff]
    simp only [decide_eq_true_eq, Bool.and_eq_true]
    exact hk k
  have hle : tb.tally s.selector d (fun k => u.has k && v.has k) ≤ tb.tally s.selector d v.has :=
    tally_mono (fun k hk => by simp only [Bool.and_eq_true] at hk; exact hk.2)
  rw [hx] at cx
  refine ⟨if tb.tally s.selector d (fun k => u.has k && v.has k) = 0 then 0 else
    ((tb.tally s.selector d (fun k => u.has k && v.has k) : Int) : Rat) / ((tb.tally s.selector d v.has : Int) : Rat), ?_, cv, ?_, ?_⟩
  · unfold Interval.whatPortionOf
    by_cases hvoid : u.isVoid = true
    · rw [if_pos hvoid]
      rcases fu.shape with hp | hh
      · rw [hp.not_void] at hvoid; cases hvoid
      · have : tb.tally s.selector d (fun k => u.has k && v.has k) = 0 := by
          rw [← tally_false (tb := tb) (sel := s.selector) (d := d)]
          apply tally_congr
          intro k
          have := hh.hi_lt_lo
          have : u.has k = false := by unfold Interval.has; simp; omega
          simp [this]
        rw [if_pos this]
    · rw [if_neg hvoid]
      simp only [Option.getD_some, h1, Bind.bind, Except.bind, cx, cv]
      by_cases h0 : tb.tally s.selector d (fun k => u.has k && v.has k) = 0
      · rw [if_pos h0, if_pos (by omega)]; rfl
      · rw [if_neg h0, if_neg (by omega)]
        unfold pyDiv
        rw [if_neg (by omega)]
  · by_cases h0 : tb.tally s.selector d (fun k => u.has k && v.has k) = 0
    · rw [if_pos h0, h0]; simp
    · rw [if_neg h0]
      have hne : (tb.tally s.selector d v.has : Rat) ≠ 0 := by
        have : tb.tally s.selector d v.has ≠ 0 := by omega
        exact_mod_cast this
      have : (((tb.tally s.selector d v.has : Int)) : Rat) = (tb.tally s.selector d v.has : Rat) := by norm_cast
      rw [this]
      rw [Rat.div_mul_cancel hne]
      norm_cast
  · intro h0
    rw [if_pos (by omega)]

/-- **C115.** What two intervals share is the portion of either one times the number of its workshifts. -/
theorem C115_shared {tb : Timeboard L} (h : tb.Reachable) {u v : Interval L} (hu : tb.HasInterval u) (hv : tb.HasInterval v)
    {s : Schedule L} (hs : tb.Owns s) {d : Duty} (hd : d = .on ∨ d = .off ∨ d = .any) :
    ∃ o n x y m k, u.overlap tb v = .ok o ∧ o.count tb d (some s) = .ok n ∧ u.whatPortionOf tb v d (some s) = .ok x ∧
      v.whatPortionOf tb u d (some s) = .ok y ∧ u.count tb d (some s) = .ok m ∧ v.count tb d (some s) = .ok k ∧
      x * (k : Rat) = (n : Rat) ∧ y * (m : Rat) = (n : Rat) := by
  have hvd := h.valid
  have fu := hu.fine hvd
  have fv := hv.fine hvd
  have hso : tb.OwnsOpt (some s) := by intro x hx; cases hx; exact hs
  obtain ⟨o, h1, fo, _, hk, _⟩ := fu.overlap_ok fv (s := none) (by intro x hx; cases hx)
  obtain ⟨x, x1, x2, x3, _⟩ := fu.portion_tally hvd fv hs hd
  obtain ⟨y, y1, y2, y3, _⟩ := fv.portion_tally hvd fu hs hd
  have co := fo.count_eq hvd hso hd
  simp only [Option.getD_some] at co
  rw [fo.positions_tally] at co
  have e1 : tb.tally s.selector d o.has = tb.tally s.selector d (fun k => u.has k && v.has k) := by
    apply tally_congr
    intro k
    simp only [Interval.has]
    rw [Bool.eq_iff_iff]
    simp only [decide_eq_true_eq, Bool.and_eq_true]
    exact hk k
  have e2 : tb.tally s.selector d (fun k => v.has k && u.has k) = tb.tally s.selector d (fun k => u.has k && v.has k) :=
    tally_congr (fun k => Bool.and_comm _ _)
  rw [e1] at co
  rw [e2] at y3
  refine ⟨o, _, x, y, _, _, h1, co, x1, y1, y2, x2, ?_, ?_⟩
  · exact_mod_cast x3
  · exact_mod_cast y3

/-- **C115.** The portion is decided by the part which is shared: `u / v = (u * v) / v`. -/
theorem C115_of_the_overlap {tb : Timeboard L} (h : tb.Reachable) {u v : Interval L} (hu : tb.HasInterval u) (hv : tb.HasInterval v)
    {s : Schedule L} (hs : tb.Owns s) {d : Duty} (hd : d = .on ∨ d = .off ∨ d = .any) :
    ∃ o x, u.overlap tb v = .ok o ∧ u.whatPortionOf tb v d (some s) = .ok x ∧ o.whatPortionOf tb v d (some s) = .ok x := by
  have hvd := h.valid
  have fu := hu.fine hvd
  have fv := hv.fine hvd
  obtain ⟨o, h1, fo, _, hk, _⟩ := fu.overlap_ok fv (s := none) (by intro x hx; cases hx)
  obtain ⟨x, x1, _, x3, x4⟩ := fu.portion_tally hvd fv hs hd
  obtain ⟨y, y1, _, y3, y4⟩ := fo.portion_tally hvd fv hs hd
  have e : tb.tally s.selector d (fun k => o.has k && v.has k) = tb.tally s.selector d (fun k => u.has k && v.has k) := by
    apply tally_congr
    intro k
    simp only [Interval.has]
    rw [Bool.eq_iff_iff]
    simp only [decide_eq_true_eq, Bool.and_eq_true]
    have := hk k
    constructor
    · rintro ⟨a, b⟩; exact ⟨(this.1 a).1, b⟩
    · rintro ⟨a, b⟩; exact ⟨this.2 ⟨a, b⟩, b⟩
  rw [e] at y3
  refine ⟨o, x, h1, x1, ?_⟩
  rw [y1]
  congr 1
  by_cases h0 : tb.tally s.selector d v.has = 0
  · rw [x4 h0, y4 h0]
  · have hne : (tb.tally s.selector d v.has : Rat) ≠ 0 := by exact_mod_cast h0
    have := x3.trans y3.symm
    grind

/-- **C115.** Portions of nested intervals multiply: if `u` is a part of `v`, and `v` of `w`, then `u / w = (u / v) · (v / w)`. -/
theorem C115_chain {tb : Timeboard L} (h : tb.Reachable) {u v w : Interval L} (hu : tb.HasInterval u) (hv : tb.HasInterval v)
    (hw : tb.HasInterval w) (huv : u.PartOf v tb) (hvw : v.PartOf w tb) {s : Schedule L} (hs : tb.Owns s) {d : Duty}
    (hd : d = .on ∨ d = .off ∨ d = .any) :
    ∃ x y, u.whatPortionOf tb v d (some s) = .ok x ∧ v.whatPortionOf tb w d (some s) = .ok y ∧
      u.whatPortionOf tb w d (some s) = .ok (x * y) := by
  have hvd := h.valid
  have fu := hu.fine hvd
  have fv := hv.fine hvd
  have fw := hw.fine hvd
  obtain ⟨x, x1, _, x3, x4⟩ := fu.portion_tally hvd fv hs hd
  obtain ⟨y, y1, _, y3, y4⟩ := fv.portion_tally hvd fw hs hd
  obtain ⟨z, z1, _, z3, z4⟩ := fu.portion_tally hvd fw hs hd
  have hsub : ∀ {a b : Interval L}, a.Fine tb → b.Fine tb → a.PartOf b tb → ∀ k, (a.has k && b.has k) = a.has k := by
    intro a b fa fb hab k
    cases ha : a.has k with
    | false => rfl
    | true => rw [Bool.true_and]; exact (fb.has_iff hvd k).2 (hab k ((fa.has_iff hvd k).1 ha))
  have huw : u.PartOf w tb := fun k hk => hvw k (huv k hk)
  rw [tally_congr (hsub fu fv huv)] at x3
  rw [tally_congr (hsub fv fw hvw)] at y3
  rw [tally_congr (hsub fu fw huw)] at z3
  refine ⟨x, y, x1, y1, ?_⟩
  rw [z1]
  congr 1
  by_cases h0 : tb.tally s.selector d w.has = 0
  · rw [z4 h0, y4 h0]; simp
  · have hne : (tb.tally s.selector d w.has : Rat) ≠ 0 := by exact_mod_cast h0
    have : z * (tb.tally s.selector d w.has : Rat) = x * y * (tb.tally s.selector d w.has : Rat) := by
      rw [z3, Rat.mul_assoc, y3, x3]
    grind

theorem tally_any {tb : Timeboard L} {sel : L → Bool} {d : Duty} (p : Int → Bool) : ∀ vs : List (Interval L),
    vs.Pairwise (fun a b => ∀ k, ¬ (a.has k = true ∧ b.has k = true)) →
    tb.tally sel d (fun k => p k && vs.any (fun v => v.has k)) = (vs.map (fun v => tb.tally sel d (fun k => p k && v.has k))).sum := by
  intro vs
  induction vs with
  | nil =>
    intro _
    simp only [List.any_nil, Bool.and_false, List.map_nil, List.sum_nil]
    exact tally_false
  | cons v vs ih =>
    intro hp
    rw [List.pairwise_cons] at hp
    rw [List.map_cons, List.sum_cons, ← ih hp.2, ← tally_or]
    · apply tally_congr
      intro k
      rw [List.any_cons, Bool.and_or_distrib_left]
    · intro k hk
      simp only [Bool.and_eq_true, List.any_eq_true] at hk
      obtain ⟨⟨_, h1⟩, _, v', hv', h2⟩ := hk
      exact hp.1 v' hv' k ⟨h1, h2⟩

theorem Interval.SplitInto.tally_sum {tb : Timeboard L} (hvd : tb.Valid) {w : Interval L} {vs : List (Interval L)} (hsp : w.SplitInto vs tb)
    (fw : w.Fine tb) (fvs : ∀ v ∈ vs, v.Fine tb) (sel : L → Bool) (d : Duty) (p : Int → Bool) :
    tb.tally sel d (fun k => p k && w.has k) = (vs.map (fun v => tb.tally sel d (fun k => p k && v.has k))).sum := by
  rw [← tally_any p vs]
  · apply tally_congr
    intro k
    congr 1
    rw [Bool.eq_iff_iff, fw.has_iff hvd, hsp.1 k, List.any_eq_true]
    exact ⟨fun ⟨v, hv, hk⟩ => ⟨v, hv, ((fvs v hv).has_iff hvd k).2 hk⟩, fun ⟨v, hv, hk⟩ => ⟨v, hv, ((fvs v hv).has_iff hvd k).1 hk⟩⟩
  · refine hsp.2.imp_of_mem ?_
    intro a b ha hb hab k hk
    exact hab ⟨k, ((fvs a ha).has_iff hvd k).1 hk.1, ((fvs b hb).has_iff hvd k).1 hk.2⟩

theorem sum_cast_tally {α : Type} (f : α → Nat) (xs : List α) : (((xs.map f).sum : Nat) : Rat) = (xs.map (fun x => (f x : Rat))).sum := by
  induction xs with
  | nil => rfl
  | cons x xs ih => rw [List.map_cons, List.sum_cons, List.map_cons, List.sum_cons, ← ih]; push_cast; rfl

theorem sum_mul_right_tally {α : Type} (f : α → Rat) (c : Rat) (xs : List α) : (xs.map f).sum * c = (xs.map (fun x => f x * c)).sum := by
  induction xs with
  | nil => simp
  | cons x xs ih => rw [List.map_cons, List.sum_cons, List.map_cons, List.sum_cons, ← ih]; grind

/-- **C115.** The portion of an interval is the mean of its portions of the parts, weighted with the portions which the parts are of
the whole. -/
theorem C115_weighted {tb : Timeboard L} (h : tb.Reachable) {u w : Interval L} {vs : List (Interval L)} (hu : tb.HasInterval u)
    (hw : tb.HasInterval w) (hvs : ∀ v ∈ vs, tb.HasInterval v) (hsp : w.SplitInto vs tb) {s : Schedule L} (hs : tb.Owns s) {d : Duty}
    (hd : d = .on ∨ d = .off ∨ d = .any) :
    ∃ (x y : Interval L → Rat), (∀ v ∈ vs, u.whatPortionOf tb v d (some s) = .ok (x v) ∧ v.whatPortionOf tb w d (some s) = .ok (y v)) ∧
      u.whatPortionOf tb w d (some s) = .ok ((vs.map (fun v => x v * y v)).sum) := by
  have hvd := h.valid
  have fu := hu.fine hvd
  have fw := hw.fine hvd
  have fvs : ∀ v ∈ vs, v.Fine tb := fun v hv => (hvs v hv).fine hvd
  let x : Interval L → Rat := fun v => match u.whatPortionOf tb v d (some s) with | .ok q => q | .error _ => 0
  let y : Interval L → Rat := fun v => match v.whatPortionOf tb w d (some s) with | .ok q => q | .error _ => 0
  have hx : ∀ v ∈ vs, u.whatPortionOf tb v d (some s) = .ok (x v) ∧
      x v * (tb.tally s.selector d v.has : Rat) = (tb.tally s.selector d (fun k => u.has k && v.has k) : Rat) := by
    intro v hv
    obtain ⟨q, q1, _, q3, _⟩ := fu.portion_tally hvd (fvs v hv) hs hd
    have : x v = q := by simp only [x, q1]
    rw [this]
    exact ⟨q1, q3⟩
  have hy : ∀ v ∈ vs, v.whatPortionOf tb w d (some s) = .ok (y v) ∧
      y v * (tb.tally s.selector d w.has : Rat) = (tb.tally s.selector d v.has : Rat) ∧ (tb.tally s.selector d w.has = 0 → y v = 0) := by
    intro v hv
    obtain ⟨q, q1, _, q3, q4⟩ := (fvs v hv).portion_tally hvd fw hs hd
    have : y v = q := by simp only [y, q1]
    rw [this]
    refine ⟨q1, ?_, q4⟩
    rw [q3]
    congr 1
    apply tally_congr
    intro k
    cases ha : v.has k with
    | false => rfl
    | true =>
      rw [Bool.true_and]
      exact (fw.has_iff hvd k).2 ((hsp.1 k).2 ⟨v, hv, ((fvs v hv).has_iff hvd k).1 ha⟩)
  obtain ⟨z, z1, _, z3, z4⟩ := fu.portion_tally hvd fw hs hd
  refine ⟨x, y, fun v hv => ⟨(hx v hv).1, (hy v hv).1⟩, ?_⟩
  rw [z1]
  congr 1
  by_cases h0 : tb.tally s.selector d w.has = 0
  · rw [z4 h0]
    have : vs.map (fun v => x v * y v) = vs.map (fun _ => (0 : Rat)) := List.map_congr_left (fun v hv => by rw [(hy v hv).2.2 h0]; simp)
    rw [this]
    clear this hx hy hsp hvs fvs
    induction vs with
    | nil => rfl
    | cons v vs ih => rw [List.map_cons, List.sum_cons, ← ih, Rat.add_zero]
  · have hne : (tb.tally s.selector d w.has : Rat) ≠ 0 := by exact_mod_cast h0
    have key : z * (tb.tally s.selector d w.has : Rat) = (vs.map (fun v => x v * y v)).sum * (tb.tally s.selector d w.has : Rat) := by
      rw [z3, hsp.tally_sum hvd fw fvs s.selector d u.has, sum_cast_tally, sum_mul_right_tally]
      congr 1
      apply List.map_congr_left
      intro v hv
      rw [Rat.mul_assoc, (hy v hv).2.1, (hx v hv).2]
    grind

/-- **C115.** The portions of the parts of an interval add up to one, if the interval has any workshift with the duty. -/
theorem C115_parts {tb : Timeboard L} (h : tb.Reachable) {w : Interval L} {vs : List (Interval L)} (hw : tb.HasInterval w)
    (hvs : ∀ v ∈ vs, tb.HasInterval v) (hsp : w.SplitInto vs tb) {s : Schedule L} (hs : tb.Owns s) {d : Duty}
    (hd : d = .on ∨ d = .off ∨ d = .any) :
    ∃ (x : Interval L → Rat) (n : Int), (∀ v ∈ vs, v.whatPortionOf tb w d (some s) = .ok (x v)) ∧ w.count tb d (some s) = .ok n ∧
      (n ≠ 0 → (vs.map x).sum = 1) := by
  have hvd := h.valid
  have fw := hw.fine hvd
  have fvs : ∀ v ∈ vs, v.Fine tb := fun v hv => (hvs v hv).fine hvd
  have hso : tb.OwnsOpt (some s) := by intro x hx; cases hx; exact hs
  let y : Interval L → Rat := fun v => match v.whatPortionOf tb w d (some s) with | .ok q => q | .error _ => 0
  have hy : ∀ v ∈ vs, v.whatPortionOf tb w d (some s) = .ok (y v) ∧
      y v * (tb.tally s.selector d w.has : Rat) = (tb.tally s.selector d (fun k => w.has k && v.has k) : Rat) := by
    intro v hv
    obtain ⟨q, q1, _, q3, _⟩ := (fvs v hv).portion_tally hvd fw hs hd
    have : y v = q := by simp only [y, q1]
    rw [this]
    refine ⟨q1, ?_⟩
    rw [q3]
    congr 1
    exact tally_congr (fun k => Bool.and_comm _ _)
  have cw := fw.count_eq hvd hso hd
  simp only [Option.getD_some] at cw
  rw [fw.positions_tally] at cw
  refine ⟨y, _, fun v hv => (hy v hv).1, cw, ?_⟩
  intro h0
  have hne : (tb.tally s.selector d w.has : Rat) ≠ 0 := by exact_mod_cast h0
  have key : (1 : Rat) * (tb.tally s.selector d w.has : Rat) = (vs.map y).sum * (tb.tally s.selector d w.has : Rat) := by
    rw [Rat.one_mul, sum_mul_right_tally, List.map_congr_left (fun v hv => (hy v hv).2), ← sum_cast_tally,
      ← hsp.tally_sum hvd fw fvs s.selector d w.has]
    congr 1
    exact tally_congr (fun k => by rw [Bool.and_self])
  grind

/-- **C115.** An interval is all of itself, if it has any workshift with the duty. -/
theorem C115_itself {tb : Timeboard L} (h : tb.Reachable) {w : Interval L} (hw : tb.HasInterval w) {s : Schedule L} (hs : tb.Owns s)
    {d : Duty} (hd : d = .on ∨ d = .off ∨ d = .any) :
    ∃ n, w.count tb d (some s) = .ok n ∧ w.whatPortionOf tb w d (some s) = .ok (if n = 0 then 0 else 1) := by
  have hvd := h.valid
  have fw := hw.fine hvd
  obtain ⟨q, q1, q2, q3, q4⟩ := fw.portion_tally hvd fw hs hd
  refine ⟨_, q2, ?_⟩
  rw [q1]
  congr 1
  split
  · rename_i h0
    exact q4 (by exact_mod_cast h0)
  · rename_i h0
    have hne : (tb.tally s.selector d w.has : Rat) ≠ 0 := by exact_mod_cast h0
    rw [tally_congr (fun k => Bool.and_self _)] at q3
    have q3' : q * (tb.tally s.selector d w.has : Rat) = (tb.tally s.selector d w.has : Rat) := q3
    grind

open TB.Ex

/-- 3-12 January as 3-5, 6-9 and 10-12 January. -/
example : ∃ w a b c, Interval.new week (2, 11) = .ok w ∧ Interval.new week (2, 4) = .ok a ∧ Interval.new week (5, 8) = .ok b ∧
    Interval.new week (9, 11) = .ok c ∧ week.HasInterval w ∧ (∀ v ∈ [a, b, c], week.HasInterval v) ∧ w.SplitInto [a, b, c] week ∧
    a.PartOf w week := by
  obtain ⟨w, hw⟩ : ∃ u, Interval.new week (2, 11) = .ok u := ⟨_, Interval.new_ok_iff.2 ⟨by decide +kernel, by decide +kernel, by decide +kernel, rfl⟩⟩
  obtain ⟨a, ha⟩ : ∃ u, Interval.new week (2, 4) = .ok u := ⟨_, Interval.new_ok_iff.2 ⟨by decide +kernel, by decide +kernel, by decide +kernel, rfl⟩⟩
  obtain ⟨b, hb⟩ : ∃ u, Interval.new week (5, 8) = .ok u := ⟨_, Interval.new_ok_iff.2 ⟨by decide +kernel, by decide +kernel, by decide +kernel, rfl⟩⟩
  obtain ⟨c, hc⟩ : ∃ u, Interval.new week (9, 11) = .ok u := ⟨_, Interval.new_ok_iff.2 ⟨by decide +kernel, by decide +kernel, by decide +kernel, rfl⟩⟩
  have n : week.OwnsOpt none := by intro x hx; cases hx
  have iw : week.HasInterval w := .new n hw
  have ia : week.HasInterval a := .new n ha
  have ib : week.HasInterval b := .new n hb
  have ic : week.HasInterval c := .new n hc
  have hvd := week_reachable.valid
  have kw : ∀ k, w.Contains week k ↔ 2 ≤ k ∧ k ≤ 11 := by
    intro k; rw [(iw.fine hvd).contains_iff hvd]; obtain ⟨_, _, _, rfl⟩ := Interval.new_ok_iff.1 hw; exact Iff.rfl
  have ka : ∀ k, a.Contains week k ↔ 2 ≤ k ∧ k ≤ 4 := by
    intro k; rw [(ia.fine hvd).contains_iff hvd]; obtain ⟨_, _, _, rfl⟩ := Interval.new_ok_iff.1 ha; exact Iff.rfl
  have kb : ∀ k, b.Contains week k ↔ 5 ≤ k ∧ k ≤ 8 := by
    intro k; rw [(ib.fine hvd).contains_iff hvd]; obtain ⟨_, _, _, rfl⟩ := Interval.new_ok_iff.1 hb; exact Iff.rfl
  have kc : ∀ k, c.Contains week k ↔ 9 ≤ k ∧ k ≤ 11 := by
    intro k; rw [(ic.fine hvd).contains_iff hvd]; obtain ⟨_, _, _, rfl⟩ := Interval.new_ok_iff.1 hc; exact Iff.rfl
  refine ⟨w, a, b, c, hw, ha, hb, hc, iw, ?_, ⟨?_, ?_⟩, ?_⟩
  · simp only [List.mem_cons, List.not_mem_nil, or_false]
    rintro v (rfl | rfl | rfl) <;> assumption
  · intro k
    simp only [List.mem_cons, List.not_mem_nil, or_false, exists_eq_or_imp, exists_eq_left, kw, ka, kb, kc]
    omega
  · simp only [List.pairwise_cons, List.mem_cons, List.not_mem_nil, or_false, forall_eq_or_imp, forall_eq, ka, kb, kc, not_exists]
    refine ⟨⟨fun x => by omega, fun x => by omega⟩, fun x => by omega, ?_, List.Pairwise.nil⟩
    intro x hx; cases hx
  · intro k hk
    rw [ka] at hk
    rw [kw]
    omega

/- 5-11 January (position 4-10) as a portion of 3-12 January and of its parts; the parts as portions of the whole. -/
#guard exPortion (4, 10) (2, 11) .on = .ok (2/3 : Rat) && exPortion (4, 10) (2, 4) .on = .ok (1/3 : Rat) &&
  exPortion (4, 10) (5, 8) .on = .ok 1 && exPortion (4, 10) (9, 11) .on = .ok (2/3 : Rat) &&
  exPortion (2, 4) (2, 11) .on = .ok (1/3 : Rat) && exPortion (5, 8) (2, 11) .on = .ok (1/3 : Rat) &&
  exPortion (9, 11) (2, 11) .on = .ok (1/3 : Rat) && (1/3 * (1/3) + 1 * (1/3) + 2/3 * (1/3) : Rat) = 2/3
/- 3-5 January in 3-9 January in 3-12 January; a free day is no portion of itself. -/
#guard exPortion (2, 4) (2, 8) .on = .ok (1/2 : Rat) && exPortion (2, 8) (2, 11) .on = .ok (2/3 : Rat) &&
  exPortion (2, 4) (2, 11) .on = .ok (1/3 : Rat) && exPortion (0, 1) (0, 1) .on = .ok 0 && exPortion (0, 1) (0, 1) .off = .ok 1

end TB
