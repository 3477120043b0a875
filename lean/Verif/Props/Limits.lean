import Verif.Lemmas.Limits
import Verif.Examples.Boards
/-! The limits of pandas timestamps. -/
namespace TB
open TB.Ex

/-- **Where conversion raises**: a frame is constructed as if time were unlimited exactly if its first base unit does not start
before the earliest timestamp and its last one does not start after the latest one, and otherwise there is a ValueError (the RuntimeError
of the constructor is never reached). -/
theorem C100_raising_partial (freq : Freq) (a b : Time) :
    Frame.newLimited .raises freq a b =
      (Frame.new freq a b).bind (fun f => if minTime ≤ f.startTime ∧ f.unitStart ((f.n : Int) - 1) ≤ maxTime then .ok (f, f.startTimes)
        else .error .valueError) := by
  cases h : Frame.new freq a b with
  | error e => unfold Frame.newLimited; rw [h]; rfl
  | ok f =>
    have hn : 0 < f.n := Frame.new_valid h
    have h1 := Frame.unitStart_monotone (f := f) (i := 0) (j := (f.n : Int) - 1) (by omega)
    show _ = if minTime ≤ f.unitStart 0 ∧ f.unitStart ((f.n : Int) - 1) ≤ maxTime then _ else _
    by_cases h0 : minTime ≤ f.unitStart 0 ∧ f.unitStart ((f.n : Int) - 1) ≤ maxTime
    · rw [if_pos h0]; exact Frame.newLimited_ok h h0.2 h0.1
    · rw [if_neg h0]
      unfold Frame.newLimited
      rw [h]
      show (toStamp .raises (f.unitStart 0) >>= _) = _
      by_cases h2 : InRange (f.unitStart 0)
      · rw [toStamp_ok h2]
        show (toStamp .raises (f.unitStart ((f.n : Int) - 1)) >>= _) = _
        rw [toStamp_raises (fun hr => h0 ⟨h2.1, hr.2⟩)]
        rfl
      · rw [toStamp_raises h2]
        rfl

/-- Two timestamps are enough for the last base unit not to start too late: only the first one can fail. -/
theorem C100_two_timestamps {freq : Freq} {a b : Time} {f : Frame} (ha : InRange a) (hb : InRange b) (h : Frame.new freq a b = .ok f) :
    f.unitStart ((f.n : Int) - 1) ≤ maxTime ∧ ∀ i : Int, 1 ≤ i → i < f.n → InRange (f.unitStart i) := by
  have h2 := Frame.new_starts h
  refine ⟨by have := hb.2; omega, fun i h3 h4 => ⟨?_, ?_⟩⟩
  · have := Frame.unitStart_monotone (f := f) (i := 1) (j := i) h3; have := ha.1; omega
  · have := Frame.unitStart_monotone (f := f) (i := i) (j := (f.n : Int) - 1) (by omega); have := hb.2; omega

/-- **Where the number wraps around**: the RuntimeError of the constructor tells of a first base unit which starts too early, provided that
the last one starts within the limits and less than 2 ** 64 nanoseconds (some 584 years) after the first one. -/
theorem C100_wrapping_partial {freq : Freq} {a b : Time} {f : Frame} (h : Frame.new freq a b = .ok f)
    (hl : InRange (f.unitStart ((f.n : Int) - 1))) (hs : f.unitStart ((f.n : Int) - 1) < f.startTime + 2 ^ 64) :
    Frame.newLimited .wraps freq a b = if minTime ≤ f.startTime then .ok (f, f.startTimes) else .error .runtimeError := by
  by_cases h0 : minTime ≤ f.startTime
  · rw [if_pos h0]; exact Frame.newLimited_ok h hl.2 h0
  · rw [if_neg h0]
    have h3 : minTime - 2 ^ 64 ≤ f.unitStart 0 := by have := hl.1; unfold Frame.startTime at hs; omega
    unfold Frame.startTime at hs h0
    unfold Frame.newLimited
    rw [h]
    show (toStamp .wraps (f.unitStart 0) >>= _) = _
    rw [toStamp_wraps_below (by omega) h3, toStamp_ok (t := f.unitStart ((f.n : Int) - 1)) hl]
    show (if f.unitStart 0 + 2 ^ 64 > f.unitStart ((f.n : Int) - 1) then _ else _) = _
    rw [if_pos (by omega)]
    rfl

/-- **What is not detected**: of a frame of one base unit, or of 2 ** 64 nanoseconds or more, whose first base unit starts before the
earliest timestamp, the constructor makes a frame with a wrong start, where the number wraps around. -/
theorem C100_undetected {freq : Freq} {a b : Time} {f : Frame} (h : Frame.new freq a b = .ok f)
    (hb : f.unitStart ((f.n : Int) - 1) ≤ maxTime) (h0 : f.startTime < minTime) (h0' : minTime - 2 ^ 64 ≤ f.startTime)
    (hs : f.n = 1 ∨ f.startTime + 2 ^ 64 ≤ f.unitStart ((f.n : Int) - 1)) :
    ∃ starts, Frame.newLimited .wraps freq a b = .ok (f, starts) ∧ starts.head? = some (f.startTime + 2 ^ 64) := by
  have hv : 0 < f.n := Frame.new_valid h
  have hf : f.startTimes = f.unitStart 0 :: (f.startTimes.drop 1) := by
    have : 0 < f.startTimes.length := by rw [Frame.length_startTimes]; exact hv
    have := List.drop_eq_getElem_cons this
    rw [Frame.getElem_startTimes] at this
    exact this
  unfold Frame.startTime at h0 h0' hs
  obtain ⟨us, hu⟩ := mapM_wraps (f.startTimes.drop 1)
  have h4 : f.startTimes.mapM (toStamp .wraps) = .ok ((f.unitStart 0 + 2 ^ 64) :: us) := by
    rw [hf, List.mapM_cons, toStamp_wraps_below h0 h0', hu]; rfl
  refine ⟨(f.unitStart 0 + 2 ^ 64) :: us, ?_, rfl⟩
  unfold Frame.newLimited
  rw [h]
  show (toStamp .wraps (f.unitStart 0) >>= _) = _
  rw [toStamp_wraps_below h0 h0']
  rcases hs with hs | hs
  · rw [show (f.n : Int) - 1 = 0 by omega, toStamp_wraps_below h0 h0']
    show (if f.unitStart 0 + 2 ^ 64 > f.unitStart 0 + 2 ^ 64 then _ else _) = _
    rw [if_neg (by omega), h4]
    rfl
  · rw [toStamp_ok (t := f.unitStart ((f.n : Int) - 1)) ⟨by unfold minTime at *; omega, hb⟩]
    show (if f.unitStart 0 + 2 ^ 64 > f.unitStart ((f.n : Int) - 1) then _ else _) = _
    rw [if_neg (by omega), h4]
    rfl

/-- A frame all of which is within the limits is constructed and searched as if time were unlimited, in both kinds of pandas. -/
theorem C100_supported {m : Overflow} {freq : Freq} {a b : Time} {f : Frame} (h : Frame.new freq a b = .ok f) (hs : f.Supported) :
    Frame.newLimited m freq a b = .ok (f, f.startTimes) ∧ ∀ t, f.getLocLimited m f.startTimes t = f.getLoc t := by
  have hv : 0 < f.n := Frame.new_valid h
  have hlast := hs ((f.n : Int) - 1) (by omega) (by omega) f.endTime (f.unitStart_le_unitEnd _) (Int.le_refl _)
  have hfirst := hs 0 (by omega) (by omega) f.startTime (Int.le_refl _) (f.unitStart_le_unitEnd _)
  refine ⟨Frame.newLimited_ok h (by have := f.unitStart_le_unitEnd ((f.n : Int) - 1); have := hlast.2; unfold Frame.endTime at this; omega) hfirst.1, ?_⟩
  intro t
  unfold Frame.getLocLimited Frame.getLoc
  rw [toStamp_ok hlast, toStamp_ok hfirst]
  show (if t > f.endTime then _ else if t < f.startTime then _ else _) = _
  by_cases h3 : t > f.endTime
  · rw [if_pos h3, if_pos (Or.inl h3)]; rfl
  · rw [if_neg h3]
    by_cases h4 : t < f.startTime
    · rw [if_pos h4, if_pos (Or.inr h4)]; rfl
    · rw [if_neg h4, if_neg (by omega)]; rfl

/-- **The end is not checked**: a frame which starts within the limits and whose last base unit goes beyond the last timestamp is
constructed; then every search in it fails, where conversion raises with a ValueError. -/
theorem C100_end_unchecked {m : Overflow} {freq : Freq} {a b : Time} {f : Frame} (h : Frame.new freq a b = .ok f)
    (hb : f.unitStart ((f.n : Int) - 1) ≤ maxTime) (h0 : minTime ≤ f.startTime) (h1 : maxTime < f.endTime) :
    Frame.newLimited m freq a b = .ok (f, f.startTimes) ∧
    (∀ t, f.getLocLimited .raises f.startTimes t = .error .valueError) ∧
    (f.endTime ≤ maxTime + 2 ^ 64 → ∀ t, f.endTime - 2 ^ 64 < t → f.getLocLimited .wraps f.startTimes t = .error .keyError) := by
  refine ⟨Frame.newLimited_ok h hb h0, ?_, ?_⟩
  · intro t
    unfold Frame.getLocLimited
    rw [toStamp_raises (fun hr => by have := hr.2; omega)]
    rfl
  · intro h2 t ht
    unfold Frame.getLocLimited
    rw [toStamp_wraps_above h1 h2]
    show (if t > f.endTime - 2 ^ 64 then _ else _) = _
    rw [if_pos ht]
    rfl

/-- The full claim, that exactly the frames all of which is within the limits are constructed, fails: the year 2262 alone is constructed
in both kinds of pandas, and so is, with a wrong start, the year 1677 alone where the number wraps around. -/
theorem C100_negation :
    ¬ (∀ m freq a b, InRange a → InRange b → ((Frame.newLimited m freq a b).isOk = true ↔ FrameSupported freq a b)) := by
  intro h
  have h1 := (h .raises fA (date 2262 1 1) (date 2262 1 2) (by decide +kernel) (by decide +kernel)).1 (by decide +kernel)
  obtain ⟨f, hf, hs⟩ := h1
  have hv : 0 < f.n := Frame.new_valid hf
  have h2 := (hs ((f.n : Int) - 1) (by omega) (by omega) f.endTime (f.unitStart_le_unitEnd _) (Int.le_refl _)).2
  have h3 : Frame.new fA (date 2262 1 1) (date 2262 1 2) = .ok (⟨fA, fA.base.ordOf (date 2262 1 1), 1⟩) := by decide +kernel
  rw [h3] at hf
  rw [← Except.ok.inj hf] at h2
  revert h2
  decide +kernel

/-! ## Examples -/

/-- The bounds of the limits. -/
example : minTime = date 1677 9 21 + 12 * nsMin + 43 * nsSec + 145224193 ∧
    maxTime = date 2262 4 11 + 23 * nsHour + 47 * nsMin + 16 * nsSec + 854775807 := by decide +kernel

/-- The days from 21 September 1677 on are refused, those from 22 September 1677 on are not ("22 Sep 1677 seems to be the earliest
possible day"). -/
example : Frame.newLimited .raises fD minTime (date 1677 9 30) = .error .valueError ∧
    Frame.newLimited .wraps fD minTime (date 1677 9 30) = .error .runtimeError ∧
    (Frame.newLimited .raises fD (date 1677 9 22) (date 1677 9 30)).isOk = true ∧
    (Frame.newLimited .wraps fD (date 1677 9 22) (date 1677 9 30)).isOk = true := by decide +kernel

/-- tests/test_frames.py 192-201: the 21 September 1677, given as text, stands for the day. -/
example : Frame.newLimited .raises fD (date 1677 9 21) (date 2017 1 1) = .error .valueError ∧
    Frame.newLimited .wraps fD (date 1677 9 21) (date 2017 1 1) = .error .runtimeError := by
  have h : Frame.new fD (date 1677 9 21) (date 2017 1 1) = .ok ⟨fD, fD.base.ordOf (date 1677 9 21), 123920⟩ :=
    Frame.new_ok_iff.2 (by decide +kernel)
  constructor
  · rw [C100_raising_partial, h]; decide +kernel
  · rw [C100_wrapping_partial h (by decide +kernel) (by decide +kernel)]; decide +kernel

/-- The hypotheses of `C100_wrapping_partial` hold of the first case. -/
example : ∃ f, Frame.new fD minTime (date 1677 9 30) = .ok f ∧ InRange (f.unitStart ((f.n : Int) - 1)) ∧ f.unitStart ((f.n : Int) - 1) < f.startTime + 2 ^ 64 ∧
    f.startTime < minTime := ⟨⟨fD, fD.base.ordOf minTime, 10⟩, by decide +kernel⟩

/-- The day 21 September 1677 alone is accepted where the number wraps around, with the wrong start time (20 April 2262 or so). -/
example : ∃ f starts, Frame.newLimited .wraps fD minTime minTime = .ok (f, starts) ∧ starts = [date 1677 9 21 + 2 ^ 64] ∧ f.n = 1 :=
  ⟨⟨fD, fD.base.ordOf minTime, 1⟩, [date 1677 9 21 + 2 ^ 64], by decide +kernel⟩

/-- So are the years from 1677 to 2262, which are more than 2 ** 64 nanoseconds. -/
example : (Frame.newLimited .wraps fA minTime maxTime).isOk = true ∧ Frame.newLimited .raises fA minTime maxTime = .error .valueError := by
  decide +kernel

/-- The hypotheses of `C100_undetected` hold of the years from 1677 to 2262. -/
example : ∃ f, Frame.new fA minTime maxTime = .ok f ∧ f.startTime < minTime ∧ minTime - 2 ^ 64 ≤ f.startTime ∧
    f.startTime + 2 ^ 64 ≤ f.unitStart ((f.n : Int) - 1) := ⟨⟨fA, fA.base.ordOf minTime, 586⟩, by decide +kernel⟩

/-- The days up to 11 April 2262 are accepted, and every search in them fails; those up to 10 April can be searched. -/
example : ∃ f, Frame.newLimited .raises fD (date 2262 4 1) (date 2262 4 11) = .ok (f, f.startTimes) ∧
    f.getLocLimited .raises f.startTimes (date 2262 4 2) = .error .valueError ∧
    f.getLocLimited .wraps f.startTimes (date 2262 4 2) = .error .keyError ∧ f.getLoc (date 2262 4 2) = .ok 1 :=
  ⟨⟨fD, fD.base.ordOf (date 2262 4 1), 11⟩, by decide +kernel⟩

example : ∃ f, Frame.newLimited .raises fD (date 2262 4 1) (date 2262 4 10) = .ok (f, f.startTimes) ∧
    f.getLocLimited .raises f.startTimes (date 2262 4 2) = .ok 1 ∧ f.getLocLimited .wraps f.startTimes (date 2262 4 2) = .ok 1 :=
  ⟨⟨fD, fD.base.ordOf (date 2262 4 1), 10⟩, by decide +kernel⟩

/-- The hypothesis of `C100_supported` holds of January 2017. -/
example : ∃ f, Frame.new fD (date 2017 1 1) (date 2017 1 31) = .ok f ∧ f.Supported := by
  refine ⟨⟨fD, fD.base.ordOf (date 2017 1 1), 31⟩, by decide +kernel, ?_⟩
  intro i h0 h1 t h2 h3
  have h4 := Frame.unitStart_monotone (f := ⟨fD, fD.base.ordOf (date 2017 1 1), 31⟩) (i := 0) (j := i) h0
  have h5 := Frame.unitStart_monotone (f := ⟨fD, fD.base.ordOf (date 2017 1 1), 31⟩) (i := i + 1) (j := 31) (by have : i < 31 := h1; omega)
  rw [Frame.unitEnd_eq] at h3
  have h6 : minTime ≤ Frame.unitStart ⟨fD, fD.base.ordOf (date 2017 1 1), 31⟩ 0 := by decide +kernel
  have h7 : Frame.unitStart ⟨fD, fD.base.ordOf (date 2017 1 1), 31⟩ 31 ≤ maxTime := by decide +kernel
  constructor <;> omega

end TB
