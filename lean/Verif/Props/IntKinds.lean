import Verif.Lemmas.IntKinds
import Verif.Props.Overlap
import Verif.Props.GetInterval
import Verif.Examples.Boards
/-! Property C120: intervals made of workshifts. -/
namespace TB
variable {L : Type}

/-- The constructor: workshifts of any origin stand for their positions; an integer of numpy is refused. -/
theorem C120_constructor (tb : Timeboard L) (s : Option (Schedule L)) :
    (∀ a b : KWorkshift L, KInterval.make tb (.workshift a) (.workshift b) s false =
      (Interval.new tb (a.ws.loc, b.ws.loc) s).map (fun v => ⟨v, a.np, b.np⟩)) ∧
    (∀ i j : Int, KInterval.make tb (.int ⟨i, false⟩) (.int ⟨j, false⟩) s false = (Interval.new tb (i, j) s).map (fun v => ⟨v, false, false⟩)) ∧
    (∀ (i : Int) (b : KBound L), KInterval.make tb (.int ⟨i, true⟩) b s false = .error .typeError) := by
  refine ⟨fun a b => make_workshifts tb a b s false, fun i j => make_ints tb rfl rfl s false, fun i b => rfl⟩

/-- Exactly when the overlap is refused; otherwise it is the usual one, with integers of Python as bounds. -/
theorem C120_overlap {tb : Timeboard L} (h : tb.Reachable) {u v : KInterval L} (hu : tb.HasInterval u.ivl) (hv : tb.HasInterval v.ivl)
    {s : Option (Schedule L)} (hs : tb.OwnsOpt s) :
    (u.ivl.isVoid = false → (BeginIsNumpy u v ∨ EndIsNumpy u v) → u.overlap tb v s = .error .typeError) ∧
    (u.ivl.isVoid = true → ¬ u.Plain → u.overlap tb v s = .error .typeError) ∧
    ((u.ivl.isVoid = false ∧ ¬ BeginIsNumpy u v ∧ ¬ EndIsNumpy u v) ∨ (u.ivl.isVoid = true ∧ u.Plain) →
      ∃ x, u.ivl.overlap tb v.ivl s = .ok x ∧ u.overlap tb v s = .ok ⟨x, false, false⟩) := by
  have fu := hu.fine h.valid
  have fv := hv.fine h.valid
  refine ⟨fun hn hb => (KInterval.overlap_cases fu fv hn s).1 hb, fun hn hp => (KInterval.overlap_void fu hn v s).1 ?_, ?_⟩
  · unfold KInterval.Plain at hp
    cases e0 : u.np0
    · cases e1 : u.np1
      · exact absurd ⟨e0, e1⟩ hp
      · exact .inr rfl
    · exact .inl rfl
  · intro hc
    obtain ⟨x, hx, _⟩ := fu.overlap_ok fv hs
    refine ⟨x, hx, ?_⟩
    rcases hc with ⟨hn, h1, h2⟩ | ⟨hn, hp⟩
    · rw [(KInterval.overlap_cases fu fv hn s).2 (fun hc => hc.elim h1 h2), hx]; rfl
    · rw [(KInterval.overlap_void fu hn v s).2 hp, hx]; rfl

/-- Exactly when the portion is refused; otherwise it is the usual one. -/
theorem C120_portion {tb : Timeboard L} (h : tb.Reachable) {u v : KInterval L} (hu : tb.HasInterval u.ivl) (hv : tb.HasInterval v.ivl)
    (s : Option (Schedule L)) (d : Duty) :
    (u.ivl.isVoid = false → (BeginIsNumpy u v ∨ EndIsNumpy u v) → u.whatPortionOf tb v d s = .error .typeError) ∧
    (u.ivl.isVoid = true ∨ (¬ BeginIsNumpy u v ∧ ¬ EndIsNumpy u v) → u.whatPortionOf tb v d s = u.ivl.whatPortionOf tb v.ivl d s) := by
  have fu := hu.fine h.valid
  have fv := hv.fine h.valid
  constructor
  · intro hn hb
    exact (KInterval.portion_cases hn d s).1 ((KInterval.overlap_cases fu fv hn s).1 hb)
  · intro hc
    cases hn : u.ivl.isVoid
    · have h12 : ¬ BeginIsNumpy u v ∧ ¬ EndIsNumpy u v := by
        rcases hc with hc | hc
        · rw [hn] at hc; cases hc
        · exact hc
      exact (KInterval.portion_cases hn d s).2 ((KInterval.overlap_cases fu fv hn s).2 (fun hc => hc.elim h12.1 h12.2))
    · unfold KInterval.whatPortionOf Interval.whatPortionOf
      simp only [hn, if_true]

/-- Where the bounds are integers of Python: in what `get_interval` and `overlap` return, in intervals made of integers, and in intervals made of workshifts which
are found by time. -/
theorem C120_plain (tb : Timeboard L) :
    (∀ ref n f clip c s v, tb.getIntervalK ref n f clip c s = .ok v → v.Plain) ∧
    (∀ (u v : KInterval L) s x, u.overlap tb v s = .ok x → x.Plain) ∧
    (∀ i j s v, KInterval.make tb (.int i) (.int j) s false = .ok v → v.Plain) ∧
    (∀ t t' s0 s1 a b s v, tb.getWorkshiftK t s0 = .ok a → tb.getWorkshiftK t' s1 = .ok b → KInterval.make tb (.workshift a) (.workshift b) s false = .ok v →
      v.Plain) := by
  refine ⟨?_, ?_, fun i j s v hv => KInterval.make_plain hv, ?_⟩
  · intro ref n f clip c s v hv
    unfold Timeboard.getIntervalK at hv
    split at hv
    · split at hv <;> cases hv
    · obtain ⟨_, _, rfl⟩ := Except.map_ok_inv hv; exact ⟨rfl, rfl⟩
    · obtain ⟨_, _, rfl⟩ := Except.map_ok_inv hv; exact ⟨rfl, rfl⟩
  · intro u v s x hx
    unfold KInterval.overlap at hx
    simp only at hx
    split at hx
    · exact KInterval.make_plain hx
    · split at hx
      · exact KInterval.make_plain hx
      · exact KInterval.make_plain hx
  · intro t t' s0 s1 a b s v ha hb hv
    obtain ⟨_, _, rfl⟩ := Except.map_ok_inv ha
    obtain ⟨_, _, rfl⟩ := Except.map_ok_inv hb
    obtain ⟨_, h0, h1⟩ := KInterval.of_workshifts hv
    exact ⟨h0, h1⟩

/-- `overlap` is the intersection, for intervals with integers of Python as bounds.  Missing: intervals made of workshifts which are got from other workshifts or
intervals (`C120_derived`). -/
theorem C120_intersection_partial {tb : Timeboard L} (h : tb.Reachable) {u v : KInterval L} (hu : tb.HasInterval u.ivl) (hv : tb.HasInterval v.ivl)
    (pu : u.Plain) (pv : v.Plain) {s : Option (Schedule L)} (hs : tb.OwnsOpt s) :
    ∃ x, u.overlap tb v s = .ok x ∧ x.Plain ∧ tb.HasInterval x.ivl ∧ x.ivl.schedule = s.getD u.ivl.schedule ∧
      (∀ k, x.ivl.Contains tb k ↔ (u.ivl.Contains tb k ∧ v.ivl.Contains tb k)) := by
  obtain ⟨x, hx, h1, h2, _⟩ := C23_overlap_is_intersection h hu hv hs
  have hb : ¬ BeginIsNumpy u v := by
    rintro (⟨_, e⟩ | ⟨_, e⟩)
    · rw [pu.1] at e; cases e
    · rw [pv.1] at e; cases e
  have he : ¬ EndIsNumpy u v := by
    rintro (⟨_, e⟩ | ⟨_, e⟩)
    · rw [pu.2] at e; cases e
    · rw [pv.2] at e; cases e
  have hc : (u.ivl.isVoid = false ∧ ¬ BeginIsNumpy u v ∧ ¬ EndIsNumpy u v) ∨ (u.ivl.isVoid = true ∧ u.Plain) := by
    cases u.ivl.isVoid
    · exact .inl ⟨rfl, hb, he⟩
    · exact .inr ⟨rfl, pu⟩
  obtain ⟨y, hy, hk⟩ := (C120_overlap h hu hv hs).2.2 hc
  have : y = x := by rw [hx] at hy; exact (Except.ok.inj hy).symm
  subst this
  exact ⟨_, hk, ⟨rfl, rfl⟩, .overlap hu hv hs hx, h1, h2⟩

/-- An interval whose first or last workshift is got by rolling, from an interval or by iterating: its overlap with any interval which contains it, such as itself or
the whole timeboard, is refused, and so is its portion of such an interval. -/
theorem C120_derived {tb : Timeboard L} {a b : KWorkshift L} (hd : tb.Derived a ∨ tb.Derived b) {s : Option (Schedule L)} {v w : KInterval L}
    (h : KInterval.make tb (.workshift a) (.workshift b) s false = .ok v) (h0 : w.ivl.lo ≤ v.ivl.lo) (h1 : v.ivl.hi ≤ w.ivl.hi)
    (s' : Option (Schedule L)) (d : Duty) :
    v.overlap tb w s' = .error .typeError ∧ v.whatPortionOf tb w d s' = .error .typeError := by
  obtain ⟨hn, e0, e1⟩ := KInterval.of_workshifts h
  have hp := Interval.new_proper hn
  have ho : v.overlap tb w s' = .error .typeError := by
    have g0 : KInt.greater v.lo w.lo = v.lo := by
      unfold KInt.greater KInterval.lo
      simp only
      rw [if_neg (by omega)]
    have g1 : KInt.lesser v.hi w.hi = v.hi := by
      unfold KInt.lesser KInterval.hi
      simp only
      rw [if_neg (by omega)]
    unfold KInterval.overlap
    simp only [hp.not_void, Bool.false_eq_true, if_false]
    rw [g0, g1, make_numpy tb (a := v.lo) (b := v.hi) hp.lo_nonneg (Int.lt_of_le_of_lt hp.lo_le_hi hp.hi_lt)]
    rcases hd with hd | hd
    · left; unfold KInterval.lo; rw [e0]; exact hd.numpy
    · right; unfold KInterval.hi; rw [e1]; exact hd.numpy
  exact ⟨ho, (KInterval.portion_cases hp.not_void d s').1 ho⟩

/-- The remedy: `get_interval` from the start to the end of the interval, or from its first to its last workshift, is an interval of the same workshifts with integers
of Python as bounds. -/
theorem C120_rebuilt {tb : Timeboard L} (h : tb.Reachable) {v : KInterval L} (hi : tb.HasInterval v.ivl) (hne : v.ivl.isVoid = false)
    {sch : Option (Schedule L)} (hs : tb.OwnsOpt sch) :
    (∃ a b x, v.ivl.startTime tb = .ok (some a) ∧ v.ivl.endTime tb = .ok (some b) ∧
      tb.getIntervalK (some (.pair (some a) (some b))) none none true "11" sch = .ok x ∧ x.Plain ∧ tb.HasInterval x.ivl ∧
      (∀ k, x.ivl.Contains tb k ↔ v.ivl.Contains tb k)) ∧
    (∃ w1 w2 r1 r2 x, v.nth tb 0 .any = .ok w1 ∧ v.nth tb (-1) .any = .ok w2 ∧ w1.ws.toTimestamp tb = .ok r1 ∧ w2.ws.toTimestamp tb = .ok r2 ∧
      tb.getIntervalK (some (.pair (some r1) (some r2))) none none true "11" sch = .ok x ∧ x.Plain ∧ tb.HasInterval x.ivl ∧
      (∀ k, x.ivl.Contains tb k ↔ v.ivl.Contains tb k)) := by
  obtain ⟨⟨a, b, ha, hb, x, hx, h1, _, _, h2⟩, w1, w2, r1, r2, e1, e2, e3, e4, ⟨y, hy, h3, _, _, h4⟩, _⟩ := C43_rebuilt h hi hne hs
  refine ⟨⟨a, b, ⟨x, false, false⟩, ha, hb, ?_, ⟨rfl, rfl⟩, h1, h2⟩, ⟨w1, true⟩, ⟨w2, true⟩, r1, r2, ⟨y, false, false⟩, ?_, ?_, e3, e4, ?_, ⟨rfl, rfl⟩, h3, h4⟩
  · show (tb.getInterval _ none none true "11" sch).map _ = _
    rw [hx]; rfl
  · show (v.ivl.nth tb 0 .any none).map _ = _
    rw [show v.ivl.nth tb 0 .any none = .ok w1 from e1]; rfl
  · show (v.ivl.nth tb (-1) .any none).map _ = _
    rw [show v.ivl.nth tb (-1) .any none = .ok w2 from e2]; rfl
  · show (tb.getInterval _ none none true "11" sch).map _ = _
    rw [hy]; rfl

/-- Numbers which the methods of intervals return, given as `length`: what `total_duration` returns is refused (unless it is 0, which is no length either), what
`count` returns for a duty is accepted, and so is the length of an interval with integers of Python as bounds. -/
theorem C120_lengths {tb : Timeboard L} (h : tb.Reachable) {v : KInterval L} (hi : tb.HasInterval v.ivl) {s : Option (Schedule L)} (hs : tb.OwnsOpt s) :
    (∀ ref n f clip c s', c ∈ ["00", "01", "10", "11"] → tb.getIntervalK ref (some ⟨n, true⟩) f clip c s' = .error .typeError) ∧
    (∀ ref n f clip c s', tb.getIntervalK ref (some ⟨n, false⟩) f clip c s' =
      (tb.getInterval ref (some n) f clip c s').map (fun x => ⟨x, false, false⟩)) ∧
    (∀ d, d = .on ∨ d = .off ∨ d = .any → ∃ ws n, v.ivl.workshifts tb d s = .ok ws ∧ v.totalDuration tb d s = .ok n ∧ (n.np = true ↔ ws ≠ []) ∧
      (ws = [] → n.val = 0)) ∧
    (∀ d n, d = .on ∨ d = .off → v.count tb d s = .ok n → n.np = false) ∧
    (v.Plain → v.length.np = false ∧ ∀ d n, v.count tb d s = .ok n → n.np = false) := by
  refine ⟨?_, fun ref n f clip c s' => rfl, ?_, ?_, ?_⟩
  · intro ref n f clip c s' hc
    unfold Timeboard.getIntervalK
    simp only [if_pos hc]
  · intro d hd
    have hv := h.valid
    have fv := hi.fine hv
    have ho := owns_getD_fine fv hs
    obtain ⟨ws, w1, w2, _⟩ := fv.workshifts_spec hv hs hd
    refine ⟨ws, _, w1, by unfold KInterval.totalDuration; rw [fv.totalDuration_eq hv hs hd], ?_, ?_⟩
    · simp only
      rcases fv.shape with hp | hh
      · rw [hp.not_void]
        rcases hp.dutyIdx_spec hv ho hd with ⟨idx, e1, e2⟩ | ⟨idx, a, b, e1, e2, e3, e4, e5⟩
        · rw [e1]
          rw [e2] at w2
          have : ws = [] := List.map_eq_nil_iff.1 w2
          simp [this]
        · rw [e1]
          have : ws ≠ [] := by
            rintro rfl
            rw [← e5] at w2
            have hl := congrArg List.length w2
            unfold slice at hl
            simp at hl
            omega
          simp [this]
      · rw [hh.void]
        rw [hh.dutyPositions_nil] at w2
        have : ws = [] := List.map_eq_nil_iff.1 w2
        simp [this]
    · rintro rfl
      rw [← w2]
      rfl
  · intro d n hd hn
    obtain ⟨_, _, rfl⟩ := Except.map_ok_inv hn
    rcases hd with rfl | rfl <;> simp
  · rintro ⟨p0, p1⟩
    refine ⟨by unfold KInterval.length; simp [p0, p1], ?_⟩
    intro d n hn
    obtain ⟨_, _, rfl⟩ := Except.map_ok_inv hn
    simp [p0, p1]

open Ex

/-- **C120**, arguments which are not given are those of the methods of workshifts and intervals (`Model/Workshift.lean`, `Model/Interval.lean`). -/
theorem C120_not_given (tb : Timeboard L) (t : Time) (w : KWorkshift L) (u v : KInterval L) (n : Int) :
    (tb.getWorkshiftK t).map KWorkshift.ws = tb.getWorkshift t ∧
    (w.rollforward tb).map KWorkshift.ws = w.ws.rollforward tb ∧ (w.rollback tb).map KWorkshift.ws = w.ws.rollback tb ∧
    (v.nth tb n).map KWorkshift.ws = v.ivl.nth tb n ∧ v.workshifts tb = v.workshifts tb .on none ∧
    u.overlap tb v = u.overlap tb v none ∧ u.whatPortionOf tb v = u.whatPortionOf tb v .on none ∧
    (v.count tb).map KInt.val = v.ivl.count tb ∧ (v.totalDuration tb).map KInt.val = v.ivl.totalDuration tb := by
  refine ⟨?_, ?_, ?_, ?_, rfl, rfl, rfl, ?_, ?_⟩
  · unfold Timeboard.getWorkshiftK; cases tb.getWorkshift t <;> rfl
  · unfold KWorkshift.rollforward; cases w.ws.rollforward tb <;> rfl
  · unfold KWorkshift.rollback; cases w.ws.rollback tb <;> rfl
  · unfold KInterval.nth; cases v.ivl.nth tb n <;> rfl
  · unfold KInterval.count; cases v.ivl.count tb <;> rfl
  · unfold KInterval.totalDuration; cases v.ivl.totalDuration tb <;> rfl

/-- The interval from the next working day on or after `t` to the third working day after it, made of workshifts, and the whole timeboard. -/
def rolledIntervals (tb : Timeboard L) (t : Time) : Except Err (KWorkshift L × KWorkshift L × KInterval L × KInterval L) := do
  let w ← tb.getWorkshiftK t
  let a ← w.rollforward tb
  let b ← a.rollforward tb 3
  let v ← KInterval.make tb (.workshift a) (.workshift b) none false
  let whole ← tb.getIntervalK none none none true "11" none
  return (a, b, v, whole)

theorem rolledIntervals_inv {tb : Timeboard L} {t : Time} {r : KWorkshift L × KWorkshift L × KInterval L × KInterval L}
    (h : rolledIntervals tb t = .ok r) :
    ∃ w, tb.getWorkshiftK t = .ok w ∧ w.rollforward tb = .ok r.1 ∧ r.1.rollforward tb 3 = .ok r.2.1 ∧
      KInterval.make tb (.workshift r.1) (.workshift r.2.1) none false = .ok r.2.2.1 ∧ tb.getIntervalK none none none true "11" none = .ok r.2.2.2 := by
  unfold rolledIntervals at h
  cases h1 : tb.getWorkshiftK t with
  | error e => rw [h1] at h; cases h
  | ok w =>
    rw [h1] at h
    refine ⟨w, rfl, ?_⟩
    cases h2 : w.rollforward tb with
    | error e => simp only [h2, bind, Except.bind] at h; cases h
    | ok a =>
      simp only [h2, bind, Except.bind] at h
      cases h3 : a.rollforward tb 3 with
      | error e => rw [h3] at h; cases h
      | ok b =>
        rw [h3] at h
        simp only at h
        cases h4 : KInterval.make tb (.workshift a) (.workshift b) none false with
        | error e => rw [h4] at h; cases h
        | ok v =>
          rw [h4] at h
          simp only at h
          cases h5 : tb.getIntervalK none none none true "11" none with
          | error e => rw [h5] at h; cases h
          | ok x =>
            rw [h5] at h
            cases h
            exact ⟨rfl, h3, h4, rfl⟩

/-- Not every overlap of intervals of one timeboard succeeds: January 2017 of a standard week, the interval from the first working day on or after the 5th to the
third working day after it, made of the workshifts as documented.  Its overlap with itself and with the whole timeboard is refused, and so is the portion which it is of the
timeboard, although its bounds, 4 and 8, are within those of the timeboard, 0 and 30. -/
theorem C120_negation : ∃ (w a b : KWorkshift Int) (v whole : KInterval Int), week.getWorkshiftK (date 2017 1 5) = .ok w ∧ w.rollforward week = .ok a ∧
    a.rollforward week 3 = .ok b ∧ KInterval.make week (.workshift a) (.workshift b) none false = .ok v ∧
    week.getIntervalK none none none true "11" none = .ok whole ∧ v.ivl.lo = 4 ∧ v.ivl.hi = 8 ∧ whole.ivl.lo = 0 ∧ whole.ivl.hi = 30 ∧
    v.overlap week v = .error .typeError ∧ v.overlap week whole = .error .typeError ∧ v.whatPortionOf week whole = .error .typeError := by
  have key : ∃ r, rolledIntervals week (date 2017 1 5) = .ok r ∧ r.2.2.1.ivl.lo = 4 ∧ r.2.2.1.ivl.hi = 8 ∧ r.2.2.2.ivl.lo = 0 ∧ r.2.2.2.ivl.hi = 30 := by
    have hb : (match rolledIntervals week (date 2017 1 5) with
      | .ok r => decide (r.2.2.1.ivl.lo = 4 ∧ r.2.2.1.ivl.hi = 8 ∧ r.2.2.2.ivl.lo = 0 ∧ r.2.2.2.ivl.hi = 30)
      | .error _ => false) = true := by decide +kernel
    revert hb
    cases rolledIntervals week (date 2017 1 5) with
    | error e => intro hb; cases hb
    | ok r => intro hb; exact ⟨r, rfl, of_decide_eq_true hb⟩
  obtain ⟨r, hr, h0, h1, h2, h3⟩ := key
  obtain ⟨w, e1, e2, e3, e4, e5⟩ := rolledIntervals_inv hr
  have hd : week.Derived r.1 ∨ week.Derived r.2.1 := .inl (.forward e2)
  exact ⟨w, _, _, _, _, e1, e2, e3, e4, e5, h0, h1, h2, h3, (C120_derived hd e4 (Int.le_refl _) (Int.le_refl _) none .on).1,
    (C120_derived hd e4 (by omega) (by omega) none .on).1, (C120_derived hd e4 (by omega) (by omega) none .on).2⟩

/-- The interval of the same workshifts from `get_interval`: the overlap with the whole timeboard is found. -/
example : (match rolledIntervals week (date 2017 1 5) with
    | .ok (_, _, v, whole) => (match v.ivl.startTime week, v.ivl.endTime week with
      | .ok (some x), .ok (some y) => (match week.getIntervalK (some (.pair (some x) (some y))) none none true "11" none with
        | .ok u => (match u.overlap week whole with
          | .ok z => decide (z.ivl.lo = 4 ∧ z.ivl.hi = 8 ∧ z.np0 = false ∧ z.np1 = false)
          | .error _ => false)
        | .error _ => false)
      | _, _ => false)
    | .error _ => false) = true := by decide +kernel

/-- An overlap in which the bounds of numpy do not matter: the interval of workshifts given as the second operand contains the first one. -/
example : (match rolledIntervals week (date 2017 1 5), week.getIntervalK (some (.pair (some (date 2017 1 5)) (some (date 2017 1 7)))) none none true "11" none with
    | .ok (_, _, v, _), .ok u => (match u.overlap week v, v.overlap week u with
      | .ok z, .error .typeError => decide (z.ivl.lo = 4 ∧ z.ivl.hi = 6)
      | _, _ => false)
    | _, _ => false) = true := by decide +kernel

/-- The total duration as a length. -/
example : (match week.getIntervalK (some (.pair (some (date 2017 1 5)) (some (date 2017 1 7)))) none none true "11" none with
    | .ok u => (match u.totalDuration week, u.count week with
      | .ok n, .ok k => (match week.getIntervalK (some (.point (date 2017 1 1))) (some n) none true "11" none,
          week.getIntervalK (some (.point (date 2017 1 1))) (some k) none true "11" none with
        | .error .typeError, .ok z => decide (n.val = 2 ∧ k.val = 2 ∧ z.ivl.lo = 0 ∧ z.ivl.hi = 1)
        | _, _ => false)
      | _, _ => false)
    | .error _ => false) = true := by decide +kernel

end TB
