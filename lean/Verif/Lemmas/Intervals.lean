import Verif.Lemmas.Duty
import Verif.Lemmas.Ratio
import Verif.Spec.Intervals
/-! Laws of regular and void intervals. -/
namespace TB
variable {L : Type}

/-- A void interval. -/
structure Interval.Hollow (v : Interval L) (tb : Timeboard L) : Prop where
  hi_nonneg : 0 ≤ v.hi
  hi_lt_lo : v.hi < v.lo
  lo_lt : v.lo < tb.timeline.len
  void : v.isVoid = true
  length_eq : v.length = 0

/-- The invariant of intervals. -/
structure Interval.Fine (v : Interval L) (tb : Timeboard L) : Prop where
  owned : tb.Owns v.schedule
  shape : v.Proper tb ∨ v.Hollow tb

theorem Interval.new_fine {tb : Timeboard L} (hv : tb.Valid) {a b : Int} {s : Option (Schedule L)} {v : Interval L}
    (hs : tb.OwnsOpt s) (h : Interval.new tb (a, b) s = .ok v) : v.Fine tb := by
  refine ⟨?_, .inl (Interval.new_proper h)⟩
  obtain ⟨_, _, _, rfl⟩ := Interval.new_ok_iff.1 h
  exact hv.effective_owned hs

theorem owns_getD_fine {tb : Timeboard L} {v : Interval L} (h : v.Fine tb) {s : Option (Schedule L)} (hs : tb.OwnsOpt s) :
    tb.Owns (s.getD v.schedule) := by
  cases s with
  | none => exact h.owned
  | some x => exact hs x rfl

theorem Interval.Fine.nonneg {v : Interval L} {tb : Timeboard L} (h : v.Fine tb) : 0 ≤ v.lo ∧ 0 ≤ v.hi := by
  rcases h.shape with h | h
  · have := h.lo_nonneg; have := h.lo_le_hi; omega
  · have := h.hi_nonneg; have := h.hi_lt_lo; omega

theorem Interval.Fine.lt {v : Interval L} {tb : Timeboard L} (h : v.Fine tb) : v.lo < tb.timeline.len ∧ v.hi < tb.timeline.len := by
  rcases h.shape with h | h
  · have := h.hi_lt; have := h.lo_le_hi; omega
  · have := h.lo_lt; have := h.hi_lt_lo; omega

/-- What `overlap` returns. -/
theorem Interval.Fine.overlap_ok {tb : Timeboard L} {u v : Interval L} (hu : u.Fine tb) (hv : v.Fine tb)
    {s : Option (Schedule L)} (hs : tb.OwnsOpt s) :
    ∃ x, u.overlap tb v s = .ok x ∧ x.Fine tb ∧ x.schedule = s.getD u.schedule ∧
      (∀ k, (x.lo ≤ k ∧ k ≤ x.hi) ↔ ((u.lo ≤ k ∧ k ≤ u.hi) ∧ (v.lo ≤ k ∧ k ≤ v.hi))) ∧
      (u.isVoid = false → x.lo = max u.lo v.lo ∧ x.hi = min u.hi v.hi) ∧ (u.isVoid = true → x.isVoid = true) := by
  have hu0 := hu.nonneg
  have hu1 := hu.lt
  have hv0 := hv.nonneg
  have hv1 := hv.lt
  have ho := owns_getD_fine hu hs
  have hmx : max u.lo v.lo = if u.lo ≤ v.lo then v.lo else u.lo := rfl
  have hmn : min u.hi v.hi = if u.hi ≤ v.hi then u.hi else v.hi := rfl
  rcases hu.shape with hp | hh
  · unfold Interval.overlap
    simp only [hp.not_void, Bool.false_eq_true, if_false]
    generalize hM : max u.lo v.lo = M at *
    generalize hm : min u.hi v.hi = m at *
    have a1 : 0 ≤ M ∧ M < tb.timeline.len := by omega
    have a2 : 0 ≤ m ∧ m < tb.timeline.len := by omega
    by_cases hlt : M ≤ m
    · obtain ⟨x, hx⟩ : ∃ x, x = ({ lo := M, hi := m, length := m - M + 1, isVoid := false, schedule := s.getD u.schedule } : Interval L) := ⟨_, rfl⟩
      have hnew : Interval.new tb (M, m) (some (s.getD u.schedule)) = .ok x := Interval.new_ok_iff.2 ⟨a1.1, hlt, a2.2, hx⟩
      have e1 : x.lo = M := by rw [hx]
      have e2 : x.hi = m := by rw [hx]
      have e3 : x.schedule = s.getD u.schedule := by rw [hx]
      refine ⟨x, by rw [hnew], ⟨by rw [e3]; exact ho, .inl (Interval.new_proper hnew)⟩, e3, ?_, ?_, ?_⟩
      · intro k; omega
      · intro _; exact ⟨e1, e2⟩
      · intro h; cases h
    · obtain ⟨x, hx⟩ : ∃ x, x = ({ lo := M, hi := m, length := 0, isVoid := true, schedule := s.getD u.schedule } : Interval L) := ⟨_, rfl⟩
      have hnew : Interval.new tb (M, m) (some (s.getD u.schedule)) = .error .voidInterval :=
        Interval.new_error_iff.2 (.inr ⟨rfl, by omega⟩)
      have hnewv : Interval.newVoid tb (M, m) (some (s.getD u.schedule)) = .ok x :=
        Interval.newVoid_ok_iff.2 ⟨a2.1, by omega, a1.2, hx⟩
      have e1 : x.lo = M := by rw [hx]
      have e2 : x.hi = m := by rw [hx]
      have e3 : x.schedule = s.getD u.schedule := by rw [hx]
      have e4 : x.isVoid = true := by rw [hx]
      have e5 : x.length = 0 := by rw [hx]
      refine ⟨x, by rw [hnew]; exact hnewv, ⟨by rw [e3]; exact ho, .inr ⟨by omega, by omega, by omega, e4, e5⟩⟩, e3, ?_, ?_, ?_⟩
      · intro k; omega
      · intro _; exact ⟨e1, e2⟩
      · intro h; cases h
  · unfold Interval.overlap
    simp only [hh.void, if_true]
    have h1 := hh.hi_nonneg
    have h2 := hh.hi_lt_lo
    have h3 := hh.lo_lt
    refine ⟨_, Interval.newVoid_ok_iff.2 ⟨h1, h2, h3, rfl⟩, ⟨ho, .inr ⟨h1, h2, h3, rfl, rfl⟩⟩, rfl, ?_, ?_, ?_⟩
    · intro k; simp only; omega
    · intro h; cases h
    · intro _; trivial

theorem Timeboard.HasInterval.fine {tb : Timeboard L} (hv : tb.Valid) {v : Interval L} (h : tb.HasInterval v) : v.Fine tb := by
  induction h with
  | new hs h => exact Interval.new_fine hv hs h
  | overlap hu hv' hs h ih1 ih2 =>
    obtain ⟨x, h1, h2, _⟩ := ih1.overlap_ok ih2 hs
    rw [h1] at h; cases h; exact h2

theorem Interval.Hollow.dutyPositions_nil {tb : Timeboard L} {v : Interval L} (h : v.Hollow tb) (sel : L → Bool) (duty : Duty) :
    tb.dutyPositions sel duty v.lo v.hi = [] := by
  have := h.hi_lt_lo
  unfold Timeboard.dutyPositions
  rw [intRange_empty (by omega)]; rfl

theorem Interval.Fine.count_eq {v : Interval L} {tb : Timeboard L} (hf : v.Fine tb) (hv : tb.Valid)
    {sch : Option (Schedule L)} (ho : tb.OwnsOpt sch) {duty : Duty} (hd : duty = .on ∨ duty = .off ∨ duty = .any) :
    v.count tb duty sch = .ok ((tb.dutyPositions (sch.getD v.schedule).selector duty v.lo v.hi).length : Int) := by
  rcases hf.shape with hp | hh
  · exact hp.count_eq hv (owns_getD_fine hf ho) hd
  · rw [hh.dutyPositions_nil]
    unfold Interval.count
    simp only [hh.void, if_true]; rfl

theorem Interval.Fine.workshifts_spec {v : Interval L} {tb : Timeboard L} (hf : v.Fine tb) (hv : tb.Valid)
    {sch : Option (Schedule L)} (ho : tb.OwnsOpt sch) {duty : Duty} (hd : duty = .on ∨ duty = .off ∨ duty = .any) :
    ∃ ws, v.workshifts tb duty sch = .ok ws ∧
      ws.map (fun w => w.loc) = tb.dutyPositions (sch.getD v.schedule).selector duty v.lo v.hi ∧
      (∀ w ∈ ws, w.schedule = sch.getD v.schedule ∧ tb.timeline.label w.loc = .ok w.label) := by
  rcases hf.shape with hp | hh
  · obtain ⟨ws, h1, h2, h3, _⟩ := hp.workshifts_spec hv (owns_getD_fine hf ho) hd
    exact ⟨ws, h1, h2, h3⟩
  · rw [hh.dutyPositions_nil]
    refine ⟨[], ?_, rfl, by simp⟩
    unfold Interval.workshifts
    simp only [hh.void, if_true]

theorem Interval.Fine.iter_spec {v : Interval L} {tb : Timeboard L} (hf : v.Fine tb) (hv : tb.Valid) :
    ∃ ws, v.iter tb = .ok ws ∧ ws.map (fun w => w.loc) = intRange v.lo (v.hi + 1) := by
  obtain ⟨ws, h1, h2, _⟩ := hf.workshifts_spec hv (sch := none) (by intro x hx; cases hx) (duty := .any) (.inr (.inr rfl))
  have := hf.nonneg
  have := hf.lt
  refine ⟨ws, h1, ?_⟩
  rw [h2, hv.dutyPositions_any _ (by omega) (by omega)]

theorem Interval.Fine.contains_iff {v : Interval L} {tb : Timeboard L} (hf : v.Fine tb) (hv : tb.Valid) (k : Int) :
    v.Contains tb k ↔ v.lo ≤ k ∧ k ≤ v.hi := by
  obtain ⟨ws, h1, h2⟩ := hf.iter_spec hv
  have : (∃ w ∈ ws, w.loc = k) ↔ k ∈ ws.map (fun w => w.loc) := by simp
  unfold Interval.Contains
  rw [h1]
  simp only [Except.ok.injEq, exists_eq_left']
  rw [this, h2, mem_intRange]
  omega

theorem Interval.Fine.len_eq {v : Interval L} {tb : Timeboard L} (hf : v.Fine tb) :
    v.len = ((intRange v.lo (v.hi + 1)).length : Int) := by
  unfold Interval.len
  rw [length_intRange]
  rcases hf.shape with h | h
  · have := h.length_eq; have := h.lo_le_hi; omega
  · have := h.length_eq; have := h.hi_lt_lo; omega

theorem Interval.Fine.totalDuration_eq {v : Interval L} {tb : Timeboard L} (hf : v.Fine tb) (hv : tb.Valid)
    {sch : Option (Schedule L)} (ho : tb.OwnsOpt sch) {duty : Duty} (hd : duty = .on ∨ duty = .off ∨ duty = .any) :
    v.totalDuration tb duty sch = .ok ((tb.dutyPositions (sch.getD v.schedule).selector duty v.lo v.hi).map
      (fun k => tb.timeline.bnd (k + 1) - tb.timeline.bnd k)).sum := by
  rcases hf.shape with hp | hh
  · exact hp.totalDuration_eq hv (owns_getD_fine hf ho) hd
  · rw [hh.dutyPositions_nil]
    unfold Interval.totalDuration
    simp only [hh.void, if_true]; rfl

end TB
