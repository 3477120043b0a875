import Verif.Lemmas.Intervals
import Verif.Props.Duty
/-! Properties C23, C24, C25, C58: overlaps, portions, void intervals. -/
namespace TB
open TB.Ex
variable {L : Type}

/-- **C23.** For two intervals of one timeboard `overlap` does not raise; a workshift belongs to the result iff it belongs to
both intervals; if there is none the result is void: zero length, zero counts, nothing to iterate over. -/
theorem C23_overlap_is_intersection {tb : Timeboard L} (h : tb.Reachable) {u v : Interval L} (hu : tb.HasInterval u)
    (hv : tb.HasInterval v) {s : Option (Schedule L)} (hs : tb.OwnsOpt s) :
    ∃ x, u.overlap tb v s = .ok x ∧ x.schedule = s.getD u.schedule ∧
      (∀ k, x.Contains tb k ↔ (u.Contains tb k ∧ v.Contains tb k)) ∧
      ((∃ k, u.Contains tb k ∧ v.Contains tb k) ↔ x.isVoid = false) ∧
      (x.isVoid = true → x.len = 0 ∧ x.iter tb = .ok [] ∧
        ∀ d, d = .on ∨ d = .off ∨ d = .any → x.count tb d = .ok 0 ∧ x.workshifts tb d = .ok []) := by
  have hvd := h.valid
  have fu := hu.fine hvd
  have fv := hv.fine hvd
  obtain ⟨x, h1, fx, h3, h4, h5, h6⟩ := fu.overlap_ok fv hs
  have key : ∀ k, x.Contains tb k ↔ (u.Contains tb k ∧ v.Contains tb k) := by
    intro k
    rw [fx.contains_iff hvd, fu.contains_iff hvd, fv.contains_iff hvd, h4]
  refine ⟨x, h1, h3, key, ?_, ?_⟩
  · constructor
    · rintro ⟨k, hk⟩
      rw [← key, fx.contains_iff hvd] at hk
      rcases fx.shape with hp | hh
      · exact hp.not_void
      · have := hh.hi_lt_lo; omega
    · intro hnv
      rcases fx.shape with hp | hh
      · refine ⟨x.lo, (key _).1 ?_⟩
        rw [fx.contains_iff hvd]
        have := hp.lo_le_hi; omega
      · rw [hh.void] at hnv; cases hnv
  · intro hvoid
    have e : ∀ d, x.workshifts tb d = .ok [] := by
      intro d; unfold Interval.workshifts; simp only [hvoid, if_true]
    refine ⟨?_, e .any, ?_⟩
    · rcases fx.shape with hp | hh
      · rw [hp.not_void] at hvoid; cases hvoid
      · exact hh.length_eq
    · intro d _
      refine ⟨?_, e d⟩
      unfold Interval.count; simp only [hvoid, if_true]

/-- Two intervals of the example: 3-9 January and 8-21 January. -/
theorem exU : ∃ u, Interval.new week (2, 8) = .ok u ∧ week.HasInterval u := by
  obtain ⟨u, hu⟩ : ∃ u, Interval.new week (2, 8) = .ok u := ⟨_, Interval.new_ok_iff.2 ⟨by decide +kernel, by decide +kernel, by decide +kernel, rfl⟩⟩
  exact ⟨u, hu, .new (by intro x hx; cases hx) hu⟩
/-- Overlaps of the interval 2..8: with 7..20, and with 15..20. -/
def exOverlap (b : Int × Int) : Except Err (Interval Int) := do
  let u ← Interval.new week (2, 8)
  let v ← Interval.new week b
  u.overlap week v
example : (exOverlap (7, 20)).map (fun x => (x.lo, x.hi, x.len, x.isVoid)) = .ok (7, 8, 2, false) ∧
    (exOverlap (15, 20)).map (fun x => (x.lo, x.hi, x.len, x.isVoid)) = .ok (15, 8, 0, true) ∧
    (exOverlap (15, 20)).bind (fun x => x.count week .any) = .ok 0 := by decide +kernel

/-- **C24.** As sets of workshifts, overlap is commutative, associative and idempotent. -/
theorem C24_overlap_algebra {tb : Timeboard L} (h : tb.Reachable) {u v t : Interval L} (hu : tb.HasInterval u)
    (hv : tb.HasInterval v) (ht : tb.HasInterval t) {s : Option (Schedule L)} (hs : tb.OwnsOpt s) :
    (∃ x y, u.overlap tb v s = .ok x ∧ v.overlap tb u s = .ok y ∧ (∀ k, x.Contains tb k ↔ y.Contains tb k) ∧ x.isVoid = y.isVoid ∧ x.len = y.len) ∧
    (∃ x x' y y', u.overlap tb v s = .ok x ∧ x.overlap tb t s = .ok x' ∧ v.overlap tb t s = .ok y ∧ u.overlap tb y s = .ok y' ∧
      (∀ k, x'.Contains tb k ↔ y'.Contains tb k) ∧ x'.isVoid = y'.isVoid ∧ x'.len = y'.len) ∧
    (∃ x, u.overlap tb u s = .ok x ∧ (∀ k, x.Contains tb k ↔ u.Contains tb k) ∧ x.isVoid = u.isVoid ∧ x.len = u.len) := by
  have hvd := h.valid
  have fu := hu.fine hvd
  have fv := hv.fine hvd
  have ft := ht.fine hvd
  have same : ∀ {p q : Interval L}, p.Fine tb → q.Fine tb → (∀ k, (p.lo ≤ k ∧ k ≤ p.hi) ↔ (q.lo ≤ k ∧ k ≤ q.hi)) →
      (∀ k, p.Contains tb k ↔ q.Contains tb k) ∧ p.isVoid = q.isVoid ∧ p.len = q.len := by
    intro p q fp fq hpq
    refine ⟨fun k => by rw [fp.contains_iff hvd, fq.contains_iff hvd, hpq], ?_, ?_⟩
    · rcases fp.shape with a | a <;> rcases fq.shape with b | b
      · rw [a.not_void, b.not_void]
      · have := hpq p.lo; have := a.lo_le_hi; have := b.hi_lt_lo; omega
      · have := hpq q.lo; have := a.hi_lt_lo; have := b.lo_le_hi; omega
      · rw [a.void, b.void]
    · rw [fp.len_eq, fq.len_eq]
      congr 2
      apply eq_of_pairwise_lt (pairwise_intRange _ _) (pairwise_intRange _ _)
      intro k
      rw [mem_intRange, mem_intRange]
      have := hpq k
      omega
  obtain ⟨x, h1, fx, _, e1, _⟩ := fu.overlap_ok fv hs
  obtain ⟨y, h2, fy, _, e2, _⟩ := fv.overlap_ok fu hs
  obtain ⟨x', h3, fx', _, e3, _⟩ := fx.overlap_ok ft hs
  obtain ⟨z, h4, fz, _, e4, _⟩ := fv.overlap_ok ft hs
  obtain ⟨z', h5, fz', _, e5, _⟩ := fu.overlap_ok fz hs
  obtain ⟨q, h6, fq, _, e6, _⟩ := fu.overlap_ok fu hs
  refine ⟨⟨x, y, h1, h2, same fx fy ?_⟩, ⟨x, x', z, z', h1, h3, h4, h5, same fx' fz' ?_⟩, q, h6, same fq fu ?_⟩
  · intro k; rw [e1, e2]; exact and_comm
  · intro k; rw [e3, e1, e5, e4, and_assoc]
  · intro k; rw [e6]; exact and_self_iff

example : (do let x ← exOverlap (15, 20); let t ← Interval.new week (0, 30); let y ← t.overlap week x; return (y.isVoid, y.len)) = .ok (true, 0) := by
  decide +kernel

/-- **C25.** `what_portion_of` is the ratio: of the workshifts with the duty in `v`, the part which is also in `u` (0 if there
is none).  It never fails, lies in `[0, 1]`, and is 1 iff `v` has workshifts with the duty and all of them are in `u`. -/
theorem C25_what_portion_of {tb : Timeboard L} (h : tb.Reachable) {u v : Interval L} (hu : tb.HasInterval u)
    (hv : tb.HasInterval v) {s : Option (Schedule L)} (hs : tb.OwnsOpt s) {d : Duty} (hd : d = .on ∨ d = .off ∨ d = .any) :
    ∃ wu wv q, u.iter tb = .ok wu ∧ v.workshifts tb d (some (s.getD u.schedule)) = .ok wv ∧ u.whatPortionOf tb v d s = .ok q ∧
      (q = let n := (wv.filter (fun w => (wu.map (fun w => w.loc)).contains w.loc)).length
           if n = 0 then 0 else ((n : Int) : Rat) / ((wv.length : Int) : Rat)) ∧
      0 ≤ q ∧ q ≤ 1 ∧ (q = 1 ↔ (wv ≠ [] ∧ ∀ w ∈ wv, u.Contains tb w.loc)) := by
  have hvd := h.valid
  have fu := hu.fine hvd
  have fv := hv.fine hvd
  have hsome : tb.OwnsOpt (some (s.getD u.schedule)) := by
    intro x hx; cases hx; exact owns_getD_fine fu hs
  obtain ⟨wu, i1, i2⟩ := fu.iter_spec hvd
  obtain ⟨wv, j1, j2, _⟩ := fv.workshifts_spec hvd hsome hd
  simp only [Option.getD_some] at j2
  obtain ⟨x, h1, fx, h3, h4, h5, h6⟩ := fu.overlap_ok fv hsome
  simp only [Option.getD_some] at h3
  have hcount : x.count tb d = .ok ((tb.dutyPositions (s.getD u.schedule).selector d x.lo x.hi).length : Int) := by
    have := fx.count_eq hvd (sch := none) (by intro x hx; cases hx) hd
    simpa only [Option.getD_none, h3] using this
  have hcv : v.count tb d (some (s.getD u.schedule)) = .ok (wv.length : Int) := by
    have := fv.count_eq hvd hsome hd
    simp only [Option.getD_some] at this
    rw [this, ← j2, List.length_map]
  have hpos : tb.dutyPositions (s.getD u.schedule).selector d x.lo x.hi =
      (wv.map (fun w => w.loc)).filter (fun k => (wu.map (fun w => w.loc)).contains k) := by
    rw [j2, i2]
    apply eq_of_pairwise_lt (tb.pairwise_dutyPositions _ _ _ _) ((tb.pairwise_dutyPositions _ _ _ _).filter _)
    intro k
    rw [List.mem_filter, Timeboard.mem_dutyPositions, Timeboard.mem_dutyPositions, List.contains_iff_mem, mem_intRange]
    have := h4 k
    constructor
    · rintro ⟨a1, a2, a3⟩
      have := this.1 ⟨a1, a2⟩
      exact ⟨⟨this.2.1, this.2.2, a3⟩, by omega⟩
    · rintro ⟨⟨a1, a2, a3⟩, a4⟩
      have := this.2 ⟨by omega, a1, a2⟩
      exact ⟨this.1, this.2, a3⟩
  generalize hn : (wv.filter (fun w => (wu.map (fun w => w.loc)).contains w.loc)).length = n
  have hlen : (tb.dutyPositions (s.getD u.schedule).selector d x.lo x.hi).length = n := by
    rw [hpos, List.filter_map, List.length_map, ← hn]; rfl
  rw [hlen] at hcount
  have hle : n ≤ wv.length := by rw [← hn]; exact List.length_filter_le _ _
  have hq : u.whatPortionOf tb v d s = .ok (if n = 0 then 0 else ((n : Int) : Rat) / ((wv.length : Int) : Rat)) := by
    unfold Interval.whatPortionOf
    cases hvoid : u.isVoid with
    | true =>
      have hx := h6 hvoid
      have : n = 0 := by
        unfold Interval.count at hcount
        simp only [hx, if_true, Except.ok.injEq] at hcount
        omega
      simp only [if_true, this]
    | false =>
      simp only [Bool.false_eq_true, if_false, bind, Except.bind, h1, hcount, hcv]
      by_cases hn0 : n = 0
      · subst hn0; rfl
      · rw [if_neg (by omega), if_neg hn0]
        unfold pyDiv
        rw [if_neg (by omega)]
  have hfull : n = wv.length ↔ ∀ w ∈ wv, u.Contains tb w.loc := by
    have e : ∀ w : Workshift L, u.Contains tb w.loc ↔ (wu.map (fun w => w.loc)).contains w.loc = true := by
      intro w
      rw [fu.contains_iff hvd, i2, List.contains_iff_mem, mem_intRange]; omega
    simp only [e]
    rw [← hn, List.length_filter_eq_length_iff]
  refine ⟨wu, wv, _, i1, j1, hq, ?_, ?_, ?_, ?_⟩
  · simp only [hn]
  · split
    · exact Rat.le_refl
    · exact ratio_nonneg (by omega) (by omega)
  · split
    · decide
    · exact ratio_le_one (by omega) (by omega)
  · rw [← hfull]
    split
    · rename_i h0
      constructor
      · intro h; exact absurd h (by decide)
      · rintro ⟨ha, hb⟩
        exfalso; apply ha; apply List.eq_nil_of_length_eq_zero; omega
    · rename_i h0
      rw [ratio_one_iff (by omega)]
      constructor
      · intro h; refine ⟨?_, by omega⟩
        intro hw; rw [hw] at hle; simp only [List.length_nil] at hle; omega
      · intro h; omega

/-- The portion of the interval `b` of the example timeboard in the interval `a`. -/
def exPortion (a b : Int × Int) (d : Duty) : Except Err Rat := do
  let u ← Interval.new week a
  let v ← Interval.new week b
  u.whatPortionOf week v d
example : exPortion (2, 8) (7, 20) .on = .ok (2/11 : Rat) ∧ exPortion (0, 20) (2, 8) .on = .ok 1 ∧
    exPortion (0, 0) (2, 8) .on = .ok 0 ∧ exPortion (0, 3) (0, 1) .on = .ok 0 := by decide +kernel

/-- **C23**, **C25**, operators: `u * v` has the workshifts common to both intervals and the schedule of `u`; `u / v` is the part of
the workshifts of `v` which are on duty under the schedule of `u` that also belongs to `u`. -/
theorem C23_operators {tb : Timeboard L} (h : tb.Reachable) {u v : Interval L} (hu : tb.HasInterval u) (hv : tb.HasInterval v) :
    (∃ x, u.mul tb v = .ok x ∧ x.schedule = u.schedule ∧ ∀ k, x.Contains tb k ↔ (u.Contains tb k ∧ v.Contains tb k)) ∧
    (∃ wu wv q, u.iter tb = .ok wu ∧ v.workshifts tb .on (some u.schedule) = .ok wv ∧ u.div tb v = .ok q ∧
      (q = let n := (wv.filter (fun w => (wu.map (fun w => w.loc)).contains w.loc)).length
           if n = 0 then 0 else ((n : Int) : Rat) / ((wv.length : Int) : Rat))) := by
  have hn : tb.OwnsOpt (none : Option (Schedule L)) := by intro x hx; cases hx
  obtain ⟨x, h1, h2, h3, _⟩ := C23_overlap_is_intersection h hu hv hn
  obtain ⟨wu, wv, q, g1, g2, g3, g4, _⟩ := C25_what_portion_of h hu hv hn (d := .on) (.inl rfl)
  exact ⟨⟨x, h1, h2, h3⟩, wu, wv, q, g1, g2, g3, g4⟩

/-- The intervals 2..8 and 7..20 have two workshifts in common; both are on duty, of eleven. -/
example : (do
    let u ← Interval.new week (2, 8)
    let v ← Interval.new week (7, 20)
    let x ← u.mul week v
    let q ← u.div week v
    return (x.lo, x.hi, q)) = .ok (7, 8, (2/11 : Rat)) := by decide +kernel

/-- **C58.** A void interval behaves as an empty one, whatever the arguments. -/
theorem C58_void_interval {tb : Timeboard L} (h : tb.Reachable) {v : Interval L} (hv : tb.HasInterval v) (hvoid : v.isVoid = true)
    (d : Duty) (s : Option (Schedule L)) (num : L → Option Rat) (f : Freq) (n : Int) :
    v.len = 0 ∧ v.iter tb = .ok [] ∧ v.workshifts tb d s = .ok [] ∧ v.count tb d s = .ok 0 ∧
    v.totalDuration tb d s = .ok 0 ∧ v.worktime tb num d s = .ok 0 ∧ v.countPeriods tb f d s = .ok 0 ∧
    (∀ u, v.whatPortionOf tb u d s = .ok 0) ∧
    (v.nth tb n d s = .error .outOfBounds ∧ v.first tb d s = .error .outOfBounds ∧ v.last tb d s = .error .outOfBounds) ∧
    v.startTime tb = .ok none ∧ v.endTime tb = .ok none ∧
    (∀ u s', tb.HasInterval u → tb.OwnsOpt s' →
      (∃ x, v.overlap tb u s' = .ok x ∧ x.isVoid = true) ∧ (∃ x, u.overlap tb v s' = .ok x ∧ x.isVoid = true)) := by
  have hvd := h.valid
  have fv := hv.fine hvd
  refine ⟨?_, ?_, ?_, ?_, ?_, ?_, ?_, ?_, ⟨?_, ?_, ?_⟩, ?_, ?_, ?_⟩
  · rcases fv.shape with hp | hh
    · rw [hp.not_void] at hvoid; cases hvoid
    · exact hh.length_eq
  · unfold Interval.iter Interval.workshifts; simp only [hvoid, if_true]
  · unfold Interval.workshifts; simp only [hvoid, if_true]
  · unfold Interval.count; simp only [hvoid, if_true]
  · unfold Interval.totalDuration; simp only [hvoid, if_true]
  · unfold Interval.worktime; simp only [hvoid, if_true]
  · unfold Interval.countPeriods; simp only [hvoid, if_true]
  · intro u; unfold Interval.whatPortionOf; simp only [hvoid, if_true]
  · unfold Interval.nth; simp only [hvoid, if_true]
  · unfold Interval.first Interval.nth; simp only [hvoid, if_true]
  · unfold Interval.last Interval.nth; simp only [hvoid, if_true]
  · unfold Interval.startTime; simp only [hvoid, if_true]
  · unfold Interval.endTime; simp only [hvoid, if_true]
  · intro u s' hu hs'
    have fu := hu.fine hvd
    constructor
    · obtain ⟨x, h1, _, _, _, _, h6⟩ := fv.overlap_ok fu hs'
      exact ⟨x, h1, h6 hvoid⟩
    · obtain ⟨x, h1, fx, _, h4, _, _⟩ := fu.overlap_ok fv hs'
      refine ⟨x, h1, ?_⟩
      rcases fx.shape with hp | hh
      · exfalso
        rcases fv.shape with hp' | hh'
        · rw [hp'.not_void] at hvoid; cases hvoid
        · have := (h4 x.lo).1 ⟨Int.le_refl _, hp.lo_le_hi⟩
          have := hh'.hi_lt_lo
          omega
      · exact hh.void

example : ∃ v, exOverlap (15, 20) = .ok v ∧ week.HasInterval v ∧ v.isVoid = true := by
  have h1 : (exOverlap (15, 20)).map (fun x => x.isVoid) = .ok true := by decide +kernel
  unfold exOverlap at h1 ⊢
  obtain ⟨u, hu⟩ : ∃ u, Interval.new week (2, 8) = .ok u := ⟨_, Interval.new_ok_iff.2 ⟨by decide +kernel, by decide +kernel, by decide +kernel, rfl⟩⟩
  obtain ⟨w, hw⟩ : ∃ u, Interval.new week (15, 20) = .ok u := ⟨_, Interval.new_ok_iff.2 ⟨by decide +kernel, by decide +kernel, by decide +kernel, rfl⟩⟩
  simp only [hu, hw, bind, Except.bind] at h1 ⊢
  have n : week.OwnsOpt none := by intro x hx; cases hx
  have fu : week.HasInterval u := .new n hu
  have fw : week.HasInterval w := .new n hw
  obtain ⟨x, hx, _⟩ := (fu.fine week_reachable.valid).overlap_ok (fw.fine week_reachable.valid) n
  rw [hx] at h1 ⊢
  simp only [Except.map, Except.ok.injEq] at h1
  exact ⟨x, rfl, .overlap fu fw n hx, h1⟩

end TB
