import Verif.Model.Frame
import Verif.Lemmas.Freq
import Verif.Lemmas.Basic
/-! Laws of frames. -/
namespace TB

/-- A valid frame has at least one unit. -/
def Frame.Valid (f : Frame) : Prop := 0 < f.n

theorem Frame.ord_lt {f : Frame} {i j : Int} (h : i < j) : f.ord i < f.ord j := by
  unfold Frame.ord
  have := f.freq.mult_pos
  have : (f.freq.mult : Int) * i < (f.freq.mult : Int) * j := Int.mul_lt_mul_of_pos_left h (by omega)
  omega

theorem Frame.ord_succ (f : Frame) (i : Int) : f.ord (i + 1) = f.ord i + f.freq.mult := by
  unfold Frame.ord; rw [Int.mul_add]; omega

theorem Frame.ord_le {f : Frame} {i j : Int} (h : i ≤ j) : f.ord i ≤ f.ord j := by
  rcases Int.lt_or_eq_of_le h with h | h
  · exact Int.le_of_lt (Frame.ord_lt h)
  · rw [h]; exact Int.le_refl _

theorem Frame.ord_lt_iff {f : Frame} {i j : Int} : f.ord i < f.ord j ↔ i < j := by
  constructor
  · intro h
    rcases Int.lt_or_le i j with h' | h'
    · exact h'
    · have := Frame.ord_le (f := f) h'; omega
  · exact Frame.ord_lt

theorem Frame.ord_le_iff {f : Frame} {i j : Int} : f.ord i ≤ f.ord j ↔ i ≤ j := by
  have := @Frame.ord_lt_iff f j i; omega

theorem Frame.ord_inj {f : Frame} {i j : Int} (h : f.ord i = f.ord j) : i = j := by
  have h1 := @Frame.ord_lt_iff f j i
  have h2 := @Frame.ord_lt_iff f i j
  omega

theorem Frame.unitStart_lt_iff {f : Frame} {i j : Int} : f.unitStart i < f.unitStart j ↔ i < j := by
  unfold Frame.unitStart
  rw [Base.startOf_lt_iff, Frame.ord_lt_iff]

theorem Frame.unitStart_lt {f : Frame} {i j : Int} (h : i < j) : f.unitStart i < f.unitStart j :=
  Frame.unitStart_lt_iff.2 h

theorem Frame.unitStart_le_iff {f : Frame} {i j : Int} : f.unitStart i ≤ f.unitStart j ↔ i ≤ j := by
  have := @Frame.unitStart_lt_iff f j i; omega

/-- Base units are adjacent. -/
theorem Frame.unitEnd_eq (f : Frame) (i : Int) : f.unitEnd i = f.unitStart (i + 1) - 1 := by
  unfold Frame.unitEnd Frame.unitStart; rw [Frame.ord_succ]

theorem Frame.unitStart_le_unitEnd (f : Frame) (i : Int) : f.unitStart i ≤ f.unitEnd i := by
  rw [Frame.unitEnd_eq]
  have := @Frame.unitStart_lt f i (i + 1) (by omega)
  omega

/-- A base unit lasts at least a second. -/
theorem Frame.unitStart_add_sec (f : Frame) (i : Int) : f.unitStart i + nsSec ≤ f.unitStart (i + 1) := by
  unfold Frame.unitStart
  have h1 := f.freq.base.startOf_step (f.ord i)
  have h2 := f.freq.mult_pos
  have h3 := (f.freq.base.startOf_le_startOf (f.ord i + 1) (f.ord (i + 1))).2 (by rw [Frame.ord_succ]; omega)
  omega

theorem Frame.length_startTimes (f : Frame) : f.startTimes.length = f.n := by simp [Frame.startTimes]

theorem Frame.getElem_startTimes (f : Frame) (i : Nat) (h : i < f.startTimes.length) :
    f.startTimes[i] = f.unitStart i := by simp [Frame.startTimes]

theorem Frame.pairwise_startTimes (f : Frame) : f.startTimes.Pairwise (· < ·) := by
  unfold Frame.startTimes
  apply pairwise_map_range
  intro i j h _; exact Frame.unitStart_lt (by omega)

theorem Frame.length_ords (f : Frame) : f.ords.length = f.n := by simp [Frame.ords]

theorem Frame.getElem_ords (f : Frame) (i : Nat) (h : i < f.ords.length) : f.ords[i] = f.ord i := by
  simp [Frame.ords]

theorem Frame.mem_ords (f : Frame) (o : Int) : o ∈ f.ords ↔ ∃ i : Int, 0 ≤ i ∧ i < f.n ∧ o = f.ord i := by
  simp only [Frame.ords, List.mem_map, List.mem_range]
  constructor
  · rintro ⟨k, hk, rfl⟩; exact ⟨k, by omega, by omega, rfl⟩
  · rintro ⟨i, h0, h1, rfl⟩; exact ⟨i.toNat, by omega, by rw [Int.toNat_of_nonneg h0]⟩

/-- The unit of a frame (extended over all integers) in which a point in time lies. -/
theorem Frame.exists_unit (f : Frame) (t : Time) : ∃ i : Int, f.unitStart i ≤ t ∧ t ≤ f.unitEnd i := by
  have hm := f.freq.mult_pos
  refine ⟨(f.freq.base.ordOf t - f.o0) / f.freq.mult, ?_, ?_⟩
  · unfold Frame.unitStart
    rw [Base.startOf_le_iff]
    unfold Frame.ord
    have := Int.mul_ediv_self_le (x := f.freq.base.ordOf t - f.o0) (k := (f.freq.mult : Int)) (by omega)
    omega
  · unfold Frame.unitEnd
    have : t < f.freq.base.startOf (f.ord ((f.freq.base.ordOf t - f.o0) / f.freq.mult) + f.freq.mult) := by
      rw [Base.lt_startOf_iff]
      unfold Frame.ord
      have := Int.lt_mul_ediv_self_add (x := f.freq.base.ordOf t - f.o0) (k := (f.freq.mult : Int)) (by omega)
      omega
    omega

theorem Frame.unit_unique {f : Frame} {t : Time} {i j : Int} (h1 : f.unitStart i ≤ t) (h2 : t ≤ f.unitEnd i)
    (h3 : f.unitStart j ≤ t) (h4 : t ≤ f.unitEnd j) : i = j := by
  rw [Frame.unitEnd_eq] at h2 h4
  have h5 : f.unitStart i < f.unitStart (j + 1) := by omega
  have h6 : f.unitStart j < f.unitStart (i + 1) := by omega
  rw [Frame.unitStart_lt_iff] at h5 h6
  omega

/-- `searchsorted` over the start times finds the unit. -/
theorem Frame.ssRight_startTimes {f : Frame} {t : Time} {i : Int} (h0 : 0 ≤ i) (h1 : i < f.n)
    (h2 : f.unitStart i ≤ t) (h3 : t ≤ f.unitEnd i) : ssRight f.startTimes t = i + 1 := by
  rw [Frame.unitEnd_eq] at h3
  have := ssRight_unique (pairwise_le_of_lt f.pairwise_startTimes) t (i + 1).toNat
    (by rw [f.length_startTimes]; omega)
    (by
      intro k hk hlt
      rw [f.getElem_startTimes]
      have := (@Frame.unitStart_le_iff f k i).2 (by omega)
      omega)
    (by
      intro k hk hle
      rw [f.getElem_startTimes]
      have := (@Frame.unitStart_le_iff f (i + 1) k).2 (by omega)
      omega)
  rw [this]; omega

/-- `get_loc` finds the unit containing the timestamp, and fails exactly outside of the frame. -/
theorem Frame.getLoc_ok_iff {f : Frame} (t : Time) (i : Int) :
    f.getLoc t = .ok i ↔ (0 ≤ i ∧ i < f.n ∧ f.unitStart i ≤ t ∧ t ≤ f.unitEnd i) := by
  obtain ⟨j, hj1, hj2⟩ := f.exists_unit t
  unfold Frame.getLoc Frame.endTime Frame.startTime
  constructor
  · intro h
    split at h
    · simp at h
    · rename_i hn
      have h0 : 0 ≤ j := by
        have h' : f.unitStart 0 < f.unitStart (j + 1) := by rw [Frame.unitEnd_eq] at hj2; omega
        rw [Frame.unitStart_lt_iff] at h'; omega
      have h1 : j < f.n := by
        have h' : f.unitStart j < f.unitStart (f.n : Int) := by
          have e : ((f.n : Int) - 1 + 1) = f.n := by omega
          rw [Frame.unitEnd_eq, e] at hn; omega
        rw [Frame.unitStart_lt_iff] at h'; omega
      have := Frame.ssRight_startTimes h0 h1 hj1 hj2
      simp only [Except.ok.injEq] at h
      have : i = j := by omega
      subst this
      exact ⟨h0, h1, hj1, hj2⟩
  · rintro ⟨h0, h1, h2, h3⟩
    rw [if_neg]
    · rw [Frame.ssRight_startTimes h0 h1 h2 h3]; simp
    · have h4 := (@Frame.unitStart_le_iff f 0 i).2 h0
      have h5 := (@Frame.unitStart_le_iff f (i+1) ((f.n : Int) - 1 + 1)).2 (by omega)
      rw [Frame.unitEnd_eq] at h3 ⊢
      omega

theorem Frame.getLoc_error_iff {f : Frame} (t : Time) (e : Err) :
    f.getLoc t = .error e ↔ (e = .keyError ∧ (t < f.startTime ∨ f.endTime < t)) := by
  unfold Frame.getLoc
  split
  · rename_i h
    constructor
    · intro h'; simp only [Except.error.injEq] at h'; refine ⟨h'.symm, by omega⟩
    · rintro ⟨rfl, _⟩; rfl
  · rename_i h
    constructor
    · intro h'; simp at h'
    · rintro ⟨_, h'⟩; omega

/-- `_Frame.__new__` in closed form. -/
theorem Frame.new_ok_iff {freq : Freq} {a b : Time} {f : Frame} :
    Frame.new freq a b = .ok f ↔
      (freq.base.ordOf a ≤ freq.base.ordOf b ∧
       f = ⟨freq, freq.base.ordOf a, ((freq.base.ordOf b - freq.base.ordOf a) / freq.mult + 1).toNat⟩) := by
  have hm := freq.mult_pos
  unfold Frame.new periodRange
  simp only
  by_cases h : freq.base.ordOf b < freq.base.ordOf a
  · simp [h]; omega
  · have hq : 0 ≤ (freq.base.ordOf b - freq.base.ordOf a) / (freq.mult : Int) := Int.ediv_nonneg (by omega) (by omega)
    simp only [h, if_false]
    generalize (freq.base.ordOf b - freq.base.ordOf a) / (freq.mult : Int) = q at *
    obtain ⟨k, hk⟩ : ∃ k : Nat, (q + 1).toNat = k + 1 := ⟨q.toNat, by omega⟩
    rw [hk, List.range_succ_eq_map]
    simp
    constructor
    · rintro rfl; exact ⟨by omega, rfl⟩
    · rintro ⟨_, rfl⟩; rfl

theorem Frame.new_error_iff {freq : Freq} {a b : Time} {e : Err} :
    Frame.new freq a b = .error e ↔ (e = .voidInterval ∧ freq.base.ordOf b < freq.base.ordOf a) := by
  cases h : Frame.new freq a b with
  | ok f =>
    have := Frame.new_ok_iff.1 h
    simp; omega
  | error e' =>
    have h1 : ¬ (freq.base.ordOf a ≤ freq.base.ordOf b) := by
      intro hle
      have := (@Frame.new_ok_iff freq a b ⟨freq, freq.base.ordOf a, ((freq.base.ordOf b - freq.base.ordOf a) / freq.mult + 1).toNat⟩).2 ⟨hle, rfl⟩
      rw [h] at this; simp at this
    have h2 : e' = .voidInterval := by
      unfold Frame.new at h
      split at h
      · simpa using h.symm
      · simp at h
    subst h2
    simp only [Except.error.injEq]
    constructor
    · intro h; exact ⟨h.symm, by omega⟩
    · intro h; exact h.1.symm

theorem Frame.new_valid {freq : Freq} {a b : Time} {f : Frame} (h : Frame.new freq a b = .ok f) : f.Valid := by
  obtain ⟨h1, rfl⟩ := Frame.new_ok_iff.1 h
  unfold Frame.Valid
  have hm := freq.mult_pos
  have hq : 0 ≤ (freq.base.ordOf b - freq.base.ordOf a) / (freq.mult : Int) := Int.ediv_nonneg (by omega) (by omega)
  simp only; omega

end TB
