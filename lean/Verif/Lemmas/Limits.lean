import Verif.Spec.Limits
import Verif.Lemmas.Dividing
/-! Frames near the limits of pandas timestamps. -/
namespace TB

theorem toStamp_ok {m : Overflow} {t : Time} (h : InRange t) : toStamp m t = .ok t := if_pos h

theorem toStamp_raises {t : Time} (h : ¬ InRange t) : toStamp .raises t = .error .valueError := if_neg h

/-- Base units start on whole seconds. -/
theorem Base.startOf_seconds (b : Base) (o : Int) : ∃ k, b.startOf o = k * nsSec := by
  have hm : nsMin = 60 * nsSec := rfl
  have hh : nsHour = 3600 * nsSec := rfl
  have hd : nsDay = 86400 * nsSec := rfl
  cases b <;> simp only [Base.startOf, hm, hh, hd, ← Int.mul_assoc] <;> exact ⟨_, rfl⟩

/-- No base unit starts at NaT. -/
theorem Frame.unitStart_ne_nat (f : Frame) (i : Int) : f.unitStart i ≠ minTime - 1 := by
  obtain ⟨k, hk⟩ := f.freq.base.startOf_seconds (f.ord i)
  unfold Frame.unitStart minTime
  rw [hk]
  unfold nsSec
  omega

theorem toStamp_wraps_below {f : Frame} {i : Int} (h : f.unitStart i < minTime) (h' : minTime - 2 ^ 64 ≤ f.unitStart i) :
    toStamp .wraps (f.unitStart i) = .ok (f.unitStart i + 2 ^ 64) := by
  have hne := f.unitStart_ne_nat i
  generalize f.unitStart i = t at h h' hne ⊢
  have h0 : ¬ (minTime ≤ t ∧ t ≤ maxTime) := by omega
  rw [toStamp, if_neg h0]
  unfold minTime at h h' hne
  show Except.ok _ = _
  congr 1
  omega

theorem toStamp_wraps_above {t : Time} (h : maxTime < t) (h' : t ≤ maxTime + 2 ^ 64) : toStamp .wraps t = .ok (t - 2 ^ 64) := by
  have h0 : ¬ (minTime ≤ t ∧ t ≤ maxTime) := by omega
  rw [toStamp, if_neg h0]
  unfold maxTime at h h'
  show Except.ok _ = _
  congr 1
  omega

theorem mapM_toStamp {m : Overflow} : ∀ ts : List Time, (∀ t ∈ ts, InRange t) → ts.mapM (toStamp m) = .ok ts
  | [], _ => rfl
  | t :: ts, h => by
    rw [List.mapM_cons, toStamp_ok (h t (by simp)), mapM_toStamp ts (fun x hx => h x (by simp [hx]))]; rfl

/-- The first base unit holds the start of the range, the others start after it, and none starts after its end. -/
theorem Frame.new_starts {freq : Freq} {a b : Time} {f : Frame} (h : Frame.new freq a b = .ok f) :
    f.unitStart 0 ≤ a ∧ a < f.unitStart 1 ∧ f.unitStart ((f.n : Int) - 1) ≤ b ∧ b ≤ f.endTime := by
  obtain ⟨h1, rfl⟩ := Frame.new_ok_iff.1 h
  have hm := freq.mult_pos
  have hq : 0 ≤ (freq.base.ordOf b - freq.base.ordOf a) / (freq.mult : Int) := Int.ediv_nonneg (by omega) (by omega)
  have e1 := Int.mul_ediv_add_emod (freq.base.ordOf b - freq.base.ordOf a) freq.mult
  have e2 := Int.emod_nonneg (freq.base.ordOf b - freq.base.ordOf a) (b := (freq.mult : Int)) (by omega)
  have e3 := Int.emod_lt_of_pos (freq.base.ordOf b - freq.base.ordOf a) (b := (freq.mult : Int)) (by omega)
  have e4 : (((((freq.base.ordOf b - freq.base.ordOf a) / (freq.mult : Int) + 1).toNat : Nat) : Int) - 1) =
      (freq.base.ordOf b - freq.base.ordOf a) / (freq.mult : Int) := by omega
  refine ⟨?_, ?_, ?_, ?_⟩
  · unfold Frame.unitStart Frame.ord
    rw [Base.startOf_le_iff]; simp
  · unfold Frame.unitStart Frame.ord
    rw [Base.lt_startOf_iff]; simp only; omega
  · unfold Frame.unitStart Frame.ord
    rw [Base.startOf_le_iff]; simp only
    rw [e4]; omega
  · unfold Frame.endTime Frame.unitEnd Frame.ord
    simp only
    rw [e4]
    have := (Base.lt_startOf_iff freq.base (freq.base.ordOf a + freq.mult * ((freq.base.ordOf b - freq.base.ordOf a) / (freq.mult : Int)) +
      freq.mult) b).2 (by omega)
    omega

theorem Frame.startTimes_inRange {f : Frame} (hb : f.unitStart ((f.n : Int) - 1) ≤ maxTime)
    (h0 : minTime ≤ f.unitStart 0) : ∀ t ∈ f.startTimes, InRange t := by
  intro t ht
  unfold Frame.startTimes at ht
  obtain ⟨i, hi, rfl⟩ := List.mem_map.1 ht
  have hi := List.mem_range.1 hi
  have h1 := Frame.unitStart_monotone (f := f) (i := 0) (j := i) (by omega)
  have h2 := Frame.unitStart_monotone (f := f) (i := i) (j := (f.n : Int) - 1) (by omega)
  constructor <;> omega

/-- A frame which starts within the limits is constructed, in both kinds of pandas. -/
theorem Frame.newLimited_ok {m : Overflow} {freq : Freq} {a b : Time} {f : Frame} (h : Frame.new freq a b = .ok f)
    (hb : f.unitStart ((f.n : Int) - 1) ≤ maxTime) (h0 : minTime ≤ f.unitStart 0) : Frame.newLimited m freq a b = .ok (f, f.startTimes) := by
  have hn : 0 < f.n := Frame.new_valid h
  have h1 := Frame.unitStart_monotone (f := f) (i := 0) (j := (f.n : Int) - 1) (by omega)
  unfold Frame.newLimited
  rw [h]
  show (toStamp m (f.unitStart 0) >>= _) = _
  rw [toStamp_ok ⟨h0, by omega⟩, toStamp_ok (t := f.unitStart ((f.n : Int) - 1)) ⟨by omega, by omega⟩]
  show (if f.unitStart 0 > f.unitStart ((f.n : Int) - 1) then _ else _) = _
  rw [if_neg (by omega), mapM_toStamp _ (Frame.startTimes_inRange hb h0)]
  rfl

theorem mapM_wraps : ∀ ts : List Time, ∃ us, ts.mapM (toStamp .wraps) = .ok us
  | [] => ⟨[], rfl⟩
  | t :: ts => by
    obtain ⟨us, hu⟩ := mapM_wraps ts
    have : ∃ u, toStamp .wraps t = .ok u := by
      unfold toStamp
      split
      · exact ⟨_, rfl⟩
      · exact ⟨_, rfl⟩
    obtain ⟨u, hu'⟩ := this
    exact ⟨u :: us, by rw [List.mapM_cons, hu, hu']; rfl⟩

end TB
