import Verif.Lemmas.GetInterval
import Verif.Examples.Boards
/-! Properties C30-C36, C38, C43, C61: creation of intervals by `get_interval`. -/
namespace TB
open TB.Ex
variable {L : Type}

/-- **C30.** An interval from two points in time consists of the workshifts from the one containing the first point
to the one containing the second point; VoidIntervalError if these are in the reverse order. -/
theorem C30_two_points {tb : Timeboard L} (h : tb.Reachable) {sch : Option (Schedule L)} (hs : tb.OwnsOpt sch)
    (clip : Bool) {a b : Time} (ha : tb.Within a) (hb : tb.Within b) :
    ∃ i j, tb.At a i ∧ tb.At b j ∧
      (i ≤ j → tb.Yields sch (tb.getInterval (some (.pair (some a) (some b))) none none clip "11" sch)
        (fun k => i ≤ k ∧ k ≤ j)) ∧
      (j < i → tb.getInterval (some (.pair (some a) (some b))) none none clip "11" sch = .error .voidInterval) := by
  have hv := h.valid
  obtain ⟨i, hi⟩ := hv.at_exists ha
  obtain ⟨j, hj⟩ := hv.at_exists hb
  refine ⟨i, j, hi, hj, ?_⟩
  rw [hv.getInterval_pair hi hj closedOk_11]
  have := hv.yields_cut hs hi.1 hj.2.1 "11"
  simpa [headCut_11, tailCut_11] using this

/-- **C30**, null bounds: a null first bound stands for the beginning of the timeboard, a null second bound for its end
(so they refer to the first and the last workshift), with any other parameters. -/
theorem C30_null_bounds {tb : Timeboard L} (h : tb.Reachable) (clip : Bool) (closed : String) (sch : Option (Schedule L)) :
    (∀ b, tb.getInterval (some (.pair none b)) none none clip closed sch =
      tb.getInterval (some (.pair (some tb.startTime) b)) none none clip closed sch) ∧
    (∀ a, tb.getInterval (some (.pair a none)) none none clip closed sch =
      tb.getInterval (some (.pair a (some tb.endTime))) none none clip closed sch) ∧
    tb.At tb.startTime 0 ∧ tb.At tb.endTime (tb.timeline.len - 1) :=
  have hv := h.valid
  ⟨fun _ => hv.getInterval_null_left _ _ _ _, fun _ => hv.getInterval_null_right _ _ _ _, hv.at_start, hv.at_end⟩

/-- **C30**, no reference: the interval consists of all workshifts of the timeboard. -/
theorem C30_whole_timeboard {tb : Timeboard L} (h : tb.Reachable) {sch : Option (Schedule L)} (hs : tb.OwnsOpt sch)
    (clip : Bool) :
    tb.Yields sch (tb.getInterval none none none clip "11" sch) (fun k => 0 ≤ k ∧ k < tb.timeline.len) := by
  have hv := h.valid
  have hl := hv.wf.len_pos
  rw [getInterval_none, hv.getInterval_null_left, hv.getInterval_null_right, hv.getInterval_pair hv.at_start hv.at_end closedOk_11]
  have := (hv.yields_cut hs (i := 0) (j := tb.timeline.len - 1) (by omega) (by omega) "11").1
  simp only [headCut_11, tailCut_11] at this
  exact (this (by omega)).congr (fun k => by omega)

/-- Length and bounds of an interval, for the examples. -/
def showIvl (r : Except Err (Interval Int)) : Except Err (Int × Int × Int) := r.map (fun v => (v.lo, v.hi, v.length))

example : week.Within (date 2017 1 5) ∧ week.Within (date 2017 1 9) ∧
    showIvl (week.getInterval (some (.pair (some (date 2017 1 5)) (some (date 2017 1 9))))) = .ok (4, 8, 5) := by
  unfold Timeboard.Within; decide +kernel
example : showIvl (shifts.getInterval (some (.pair (some (date 2017 10 31)) (some (date 2017 11 1))))) = .ok (1, 3, 3) ∧
    showIvl (shifts.getInterval (some (.pair (some (date 2017 11 1)) (some (date 2017 10 31))))) = .error .voidInterval ∧
    showIvl (shifts.getInterval (some (.pair none (some (date 2017 11 1))))) = .ok (0, 3, 4) ∧
    showIvl (shifts.getInterval none) = .ok (0, 5, 6) := by decide +kernel

/-- **C31.** With a bound outside of the timeboard no interval is returned; the error tells where the bounds are. -/
theorem C31_out_of_range_bounds {tb : Timeboard L} (h : tb.Reachable) (sch : Option (Schedule L)) (clip : Bool)
    {closed : String} (hc : closedOk closed) {a b : Time} :
    (let r := tb.getInterval (some (.pair (some a) (some b))) none none clip closed sch
     (a < tb.startTime → b < tb.startTime → r = .error .outOfBounds) ∧
     (tb.endTime < a → tb.endTime < b → r = .error .outOfBounds) ∧
     (a < tb.startTime → tb.Within b → r = .error .partialOutOfBounds) ∧
     (tb.Within a → tb.endTime < b → r = .error .partialOutOfBounds) ∧
     (a < tb.startTime → tb.endTime < b → r = .error .partialOutOfBounds) ∧
     (tb.endTime < a → b ≤ tb.endTime → r = .error .voidInterval) ∧
     (tb.startTime ≤ a → b < tb.startTime → r = .error .voidInterval)) := by
  have hv := h.valid
  have hse := hv.start_lt_end
  have key : ∀ x y, tb.locate a = .ok x → tb.locate b = .ok y →
      tb.getInterval (some (.pair (some a) (some b))) none none clip closed sch =
        tb.finishInterval (stripLocs (x, y) (decide (headCut closed = 1)) (decide (tailCut closed = 1))) sch :=
    fun x y hx hy => getInterval_of_locs hc (intervalLocs_pair hx hy)
  refine ⟨?_, ?_, ?_, ?_, ?_, ?_, ?_⟩
  · intro h1 h2
    rw [key _ _ (hv.locate_left h1) (hv.locate_left h2), strip_none_none, finish_out _ (by simp) (by simp), if_pos rfl]
  · intro h1 h2
    rw [key _ _ (hv.locate_right h1) (hv.locate_right h2), strip_none_none, finish_out _ (by simp) (by simp), if_pos rfl]
  · intro h1 h2
    obtain ⟨j, hj⟩ := hv.at_exists h2
    rw [key _ _ (hv.locate_left h1) (hv.locate_at hj), strip_none_some, finish_partial_left _ (by simp) (by simp)]
  · intro h1 h2
    obtain ⟨i, hi⟩ := hv.at_exists h1
    rw [key _ _ (hv.locate_at hi) (hv.locate_right h2), strip_some_none, finish_partial_right _ (by simp) (by simp)]
  · intro h1 h2
    rw [key _ _ (hv.locate_left h1) (hv.locate_right h2), strip_none_none, finish_out _ (by simp) (by simp), if_neg (by simp)]
  · intro h1 h2
    by_cases h3 : b < tb.startTime
    · rw [key _ _ (hv.locate_right h1) (hv.locate_left h3), strip_none_none, finish_disorder _ (by simp)]
    · obtain ⟨j, hj⟩ := hv.at_exists (t := b) ⟨by omega, h2⟩
      rw [key _ _ (hv.locate_right h1) (hv.locate_at hj), strip_none_some, finish_disorder _ (by simp)]
  · intro h1 h2
    by_cases h3 : tb.endTime < a
    · rw [key _ _ (hv.locate_right h3) (hv.locate_left h2), strip_none_none, finish_disorder _ (by simp)]
    · obtain ⟨i, hi⟩ := hv.at_exists (t := a) ⟨h1, by omega⟩
      rw [key _ _ (hv.locate_at hi) (hv.locate_left h2), strip_some_none, finish_disorder _ (by simp)]

/-- **C31**, in short: an interval is returned only if both points are on the timeboard. -/
theorem C31_never_returned {tb : Timeboard L} (h : tb.Reachable) (sch : Option (Schedule L)) (clip : Bool)
    (closed : String) {a b : Time} {v : Interval L}
    (hr : tb.getInterval (some (.pair (some a) (some b))) none none clip closed sch = .ok v) :
    tb.Within a ∧ tb.Within b := by
  have hse := h.valid.start_lt_end
  by_cases hc : closedOk closed
  · have := C31_out_of_range_bounds h sch clip hc (a := a) (b := b)
    simp only [hr, reduceCtorEq, imp_false] at this
    unfold Timeboard.Within at *
    omega
  · exfalso
    unfold Timeboard.getInterval at hr
    rw [if_pos] at hr
    · cases hr
    · intro hm; apply hc; unfold closedOk; simpa using hm

example : showIvl (week.getInterval (some (.pair (some (date 2016 12 5)) (some (date 2016 12 1))))) = .error .outOfBounds ∧
    showIvl (week.getInterval (some (.pair (some (date 2016 12 5)) (some (date 2017 1 1))))) = .error .partialOutOfBounds ∧
    showIvl (week.getInterval (some (.pair (some (date 2016 12 5)) (some (date 2017 3 1))))) = .error .partialOutOfBounds ∧
    showIvl (week.getInterval (some (.pair (some (date 2017 2 5)) (some (date 2017 1 1))))) = .error .voidInterval ∧
    showIvl (week.getInterval (some (.pair (some (date 2017 1 5)) (some (date 2016 1 1))))) = .error .voidInterval := by
  decide +kernel

/-- **C32.** `closed` takes away the first and / or the last workshift of the interval defined by two points;
VoidIntervalError if nothing is left (or if the points are in the reverse order). -/
theorem C32_closed {tb : Timeboard L} (h : tb.Reachable) {sch : Option (Schedule L)} (hs : tb.OwnsOpt sch)
    (clip : Bool) {closed : String} (hc : closedOk closed) {a b : Time} (ha : tb.Within a) (hb : tb.Within b) :
    ∃ i j, tb.At a i ∧ tb.At b j ∧
      (i + headCut closed ≤ j - tailCut closed →
        tb.Yields sch (tb.getInterval (some (.pair (some a) (some b))) none none clip closed sch)
          (fun k => i + headCut closed ≤ k ∧ k ≤ j - tailCut closed)) ∧
      (j - tailCut closed < i + headCut closed →
        tb.getInterval (some (.pair (some a) (some b))) none none clip closed sch = .error .voidInterval) := by
  have hv := h.valid
  obtain ⟨i, hi⟩ := hv.at_exists ha
  obtain ⟨j, hj⟩ := hv.at_exists hb
  refine ⟨i, j, hi, hj, ?_⟩
  rw [hv.getInterval_pair hi hj hc]
  exact hv.yields_cut hs hi.1 hj.2.1 closed

/-- **C32**, any other value of `closed` is refused. -/
theorem C32_closed_values (tb : Timeboard L) (ref : Option IvlRef) (length : Option Int) (period : Option Freq) (clip : Bool)
    (closed : String) (sch : Option (Schedule L)) (hc : ¬ closedOk closed) :
    tb.getInterval ref length period clip closed sch = .error .valueError := by
  unfold Timeboard.getInterval
  rw [if_pos]
  intro hm; apply hc; unfold closedOk; simpa using hm

example : showIvl (week.getInterval (some (.pair (some (date 2017 1 5)) (some (date 2017 1 9)))) (closed := "01")) = .ok (5, 8, 4) ∧
    showIvl (week.getInterval (some (.pair (some (date 2017 1 5)) (some (date 2017 1 9)))) (closed := "10")) = .ok (4, 7, 4) ∧
    showIvl (week.getInterval (some (.pair (some (date 2017 1 5)) (some (date 2017 1 9)))) (closed := "00")) = .ok (5, 7, 3) ∧
    showIvl (week.getInterval (some (.pair (some (date 2017 1 5)) (some (date 2017 1 6)))) (closed := "00")) = .error .voidInterval ∧
    showIvl (week.getInterval (some (.pair (some (date 2017 1 31)) (some (date 2017 1 31)))) (closed := "01")) = .error .voidInterval ∧
    showIvl (week.getInterval none (closed := "1")) = .error .valueError := by
  decide +kernel

/-- **C33.** An interval by length: `n` workshifts from the one containing the point, to the past if `n` is negative,
stripped according to `closed`; the errors. -/
theorem C33_by_length {tb : Timeboard L} (h : tb.Reachable) {sch : Option (Schedule L)} (hs : tb.OwnsOpt sch)
    (clip : Bool) {closed : String} (hc : closedOk closed) (t : Time) (n : Int) :
    (n = 0 → tb.getInterval (some (.point t)) (some n) none clip closed sch = .error .voidInterval) ∧
    (n ≠ 0 → ¬ tb.Within t → tb.getInterval (some (.point t)) (some n) none clip closed sch = .error .outOfBounds) ∧
    (n ≠ 0 → ∀ k, tb.At t k →
      (let lo := if 0 < n then k else k + n + 1
       let hi := if 0 < n then k + n - 1 else k
       hi - lo + 1 = n.natAbs ∧
       (0 ≤ lo → hi < tb.timeline.len →
         (lo + headCut closed ≤ hi - tailCut closed →
           tb.Yields sch (tb.getInterval (some (.point t)) (some n) none clip closed sch)
             (fun x => lo + headCut closed ≤ x ∧ x ≤ hi - tailCut closed)) ∧
         (hi - tailCut closed < lo + headCut closed →
           tb.getInterval (some (.point t)) (some n) none clip closed sch = .error .voidInterval)) ∧
       (¬ (0 ≤ lo ∧ hi < tb.timeline.len) →
         tb.getInterval (some (.point t)) (some n) none clip closed sch = .error .partialOutOfBounds))) := by
  have hv := h.valid
  have hl := hv.wf.len_pos
  refine ⟨?_, ?_, ?_⟩
  · rintro rfl
    exact getInterval_of_error hc (by rw [intervalLocs_length]; simp [Timeboard.locsByLength])
  · intro hn ht
    rcases hv.locate_none t with ⟨k, hk, _⟩ | ⟨_, h2⟩ | ⟨_, h2⟩
    · exact absurd (hv.wf.position_in_frame hk) ht
    · rw [getInterval_of_locs hc (locs := ({ pos := none, side := -1 }, { pos := none, side := -1 }))
        (by rw [intervalLocs_length]; simp [Timeboard.locsByLength, hn, IvlRef.toTime?, h2]), finish_out _ (by simp) (by simp), if_pos rfl]
    · rw [getInterval_of_locs hc (locs := ({ pos := none, side := 1 }, { pos := none, side := 1 }))
        (by rw [intervalLocs_length]; simp [Timeboard.locsByLength, hn, IvlRef.toTime?, h2]), finish_out _ (by simp) (by simp), if_pos rfl]
  · intro hn k hk lo hi
    have h0 := hk.1
    have h1 := hk.2.1
    have hloc := hv.locate_at hk
    have key : ∀ locs, (let other := k + n - (if n < 0 then -1 else 1)
          let locs : Location × Location :=
            if other < 0 then ({ pos := none, side := -1 }, { pos := some k, side := 0 })
            else if other ≥ tb.timeline.len then ({ pos := some k, side := 0 }, { pos := none, side := 1 })
            else if other < k then ({ pos := some other, side := 0 }, { pos := some k, side := 0 })
            else ({ pos := some k, side := 0 }, { pos := some other, side := 0 })
          stripLocs locs (decide (headCut closed = 1)) (decide (tailCut closed = 1))) = locs →
        tb.getInterval (some (.point t)) (some n) none clip closed sch = tb.finishInterval locs sch := by
      intro locs hlocs
      refine getInterval_of_locs hc ?_
      rw [intervalLocs_length, ← hlocs]
      simp [Timeboard.locsByLength, hn, IvlRef.toTime?, hloc]
    have hlo : lo = if 0 < n then k else k + n + 1 := rfl
    have hhi : hi = if 0 < n then k + n - 1 else k := rfl
    clear_value lo hi
    by_cases hpos : 0 < n
    · rw [if_pos hpos] at hlo hhi
      rw [if_neg (by omega), hlo, hhi] at *
      refine ⟨by omega, ?_, ?_⟩
      · intro g0 g1
        rw [key _ (by simp only; rw [if_neg (by omega), if_neg (by omega), if_neg (by omega), strip_some_some]), finish_within]
        exact hv.yields_cut hs (i := k) (j := k + n - 1) g0 g1 closed
      · intro g
        rw [key _ (by simp only; rw [if_neg (by omega), if_pos (by omega), strip_some_none]), finish_partial_right _ (by simp) (by simp)]
    · rw [if_neg hpos] at hlo hhi
      rw [if_pos (by omega), hlo, hhi] at *
      refine ⟨by omega, ?_, ?_⟩
      · intro g0 g1
        by_cases g2 : k + n - -1 < k
        · rw [key _ (by simp only; rw [if_neg (by omega), if_neg (by omega), if_pos (by omega), strip_some_some]), finish_within]
          have e : k + n - -1 = k + n + 1 := by omega
          rw [e]
          exact hv.yields_cut hs (i := k + n + 1) (j := k) g0 g1 closed
        · rw [key _ (by simp only; rw [if_neg (by omega), if_neg (by omega), if_neg (by omega), strip_some_some]), finish_within]
          have e : k + n + 1 = k := by omega
          have e' : k + n - -1 = k := by omega
          rw [e, e']
          exact hv.yields_cut hs (i := k) (j := k) h0 h1 closed
      · intro g
        rw [key _ (by simp only; rw [if_pos (by omega), strip_none_some]), finish_partial_left _ (by simp) (by simp)]

example : showIvl (week.getInterval (some (.point (date 2017 1 5))) (length := some 3)) = .ok (4, 6, 3) ∧
    showIvl (week.getInterval (some (.point (date 2017 1 5))) (length := some (-3))) = .ok (2, 4, 3) ∧
    showIvl (week.getInterval (some (.point (date 2017 1 5))) (length := some (-1))) = .ok (4, 4, 1) ∧
    showIvl (week.getInterval (some (.point (date 2017 1 5))) (length := some (-6))) = .error .partialOutOfBounds ∧
    showIvl (week.getInterval (some (.point (date 2017 1 5))) (length := some 28)) = .error .partialOutOfBounds ∧
    showIvl (week.getInterval (some (.point (date 2017 1 5))) (length := some 27)) = .ok (4, 30, 27) ∧
    showIvl (week.getInterval (some (.point (date 2017 2 5))) (length := some (-10))) = .error .outOfBounds := by
  decide +kernel

/-- The ways to refer to a calendar period: the object itself, or a point in time within it and its frequency. -/
def PeriodRef (ref : IvlRef) (freq : Option Freq) (p : Period) : Prop :=
  (ref = .period p ∧ freq = none) ∨ ∃ t f, ref = .point t ∧ freq = some f ∧ p = Period.ofTime f t

theorem PeriodRef.locs {ref : IvlRef} {freq : Option Freq} {p : Period} (hp : PeriodRef ref freq p) {tb : Timeboard L} {clip h t : Bool} :
    tb.intervalLocs (some ref) none freq clip h t = tb.locsByPeriod p clip h t := by
  rcases hp with ⟨rfl, rfl⟩ | ⟨a, f, rfl, rfl, rfl⟩ <;> rfl

/-- **C34.** A calendar period lying within the timeboard yields the workshifts whose reference time is within the period;
VoidIntervalError if there are none. -/
theorem C34_by_period {tb : Timeboard L} (h : tb.Reachable) {sch : Option (Schedule L)} (hs : tb.OwnsOpt sch)
    (clip : Bool) {ref : IvlRef} {freq : Option Freq} {p : Period} (hp : PeriodRef ref freq p)
    (h1 : tb.Within p.startTime) (h2 : tb.Within p.endTime) :
    ((∃ k, tb.RefIn p k) → tb.Yields sch (tb.getInterval (some ref) none freq clip "11" sch) (fun k => tb.RefIn p k)) ∧
    ((∀ k, ¬ tb.RefIn p k) → tb.getInterval (some ref) none freq clip "11" sch = .error .voidInterval) := by
  have hv := h.valid
  constructor
  · rintro ⟨k, hk⟩
    obtain ⟨i, j, hi, hij, hj, hall, locs, hlocs, hin, _, _⟩ := hv.locsByPeriod_some hk clip (closed := "11") sch
    rw [getInterval_of_locs closedOk_11 (by rw [hp.locs]; exact hlocs), hin h1 h2]
    have := (hv.yields_cut hs hi hj "11").1 (by rw [headCut_11, tailCut_11]; omega)
    refine this.congr (fun k => ?_)
    rw [hall, headCut_11, tailCut_11]
    omega
  · intro hk
    obtain ⟨locs, hlocs, hf⟩ := (hv.period_none hk clip (closed := "11") sch).1 h1 h2
    rw [getInterval_of_locs closedOk_11 (by rw [hp.locs]; exact hlocs), hf]

/-- **C34**, the reference time is the start time or the end time of the workshift, as chosen for the timeboard by
`workshift_ref`. -/
theorem C34_reference_time {a : Args L} {heap heap' : Heap L} {tb : Timeboard L} (h : Timeboard.new a heap = .ok (tb, heap'))
    (w : Workshift L) : w.toTimestamp tb = if a.refEnd then w.endTime tb else w.startTime tb := by
  obtain ⟨org, frame, tl0, tl, h1, h2, h3, h4, h5, rfl⟩ := Timeboard.new_ok_iff.1 h
  have e1 : tl.refEnd = a.refEnd := by
    rw [(Timeline.amend_frame h5).2.2.2.1, (Timeline.new_wf (Frame.new_valid h3) h4).2.2]
  unfold Workshift.toTimestamp Workshift.endTime Workshift.startTime Timeline.wsRef
  rw [e1]

/-- Week 2-8 January 2017 lies within `week`; the hours from 9 to 10 of 31 October contain no end of a shift of `shifts`. -/
example : week.Within (Period.ofTime fW (date 2017 1 5)).startTime ∧ week.Within (Period.ofTime fW (date 2017 1 5)).endTime ∧
    showIvl (week.getInterval (some (.point (date 2017 1 5))) (period := some fW)) = .ok (1, 7, 7) ∧
    showIvl (week.getInterval (some (.period (Period.ofTime fW (date 2017 1 5))))) = .ok (1, 7, 7) ∧
    showIvl (shifts.getInterval (some (.point (date 2017 10 31))) (period := some fD)) = .ok (1, 2, 2) ∧
    showIvl (shifts.getInterval (some (.point (date 2017 10 31 + 9 * nsHour))) (period := some fH)) = .error .voidInterval := by
  unfold Timeboard.Within; decide +kernel

/-- **C35.** A calendar period which is not entirely within the timeboard: if some workshifts are referenced in it, these
make up the interval when clipping is on, and PartialOutOfBoundsError is raised when it is off; if there are none,
OutOfBoundsError is raised. -/
theorem C35_clipping {tb : Timeboard L} (h : tb.Reachable) {sch : Option (Schedule L)} (hs : tb.OwnsOpt sch)
    {ref : IvlRef} {freq : Option Freq} {p : Period} (hp : PeriodRef ref freq p)
    (hout : ¬ (tb.Within p.startTime ∧ tb.Within p.endTime)) :
    ((∃ k, tb.RefIn p k) →
      tb.Yields sch (tb.getInterval (some ref) none freq true "11" sch) (fun k => tb.RefIn p k) ∧
      ∀ closed, closedOk closed → tb.getInterval (some ref) none freq false closed sch = .error .partialOutOfBounds) ∧
    ((∀ k, ¬ tb.RefIn p k) → ∀ clip closed, closedOk closed →
      tb.getInterval (some ref) none freq clip closed sch = .error .outOfBounds) := by
  have hv := h.valid
  constructor
  · rintro ⟨k, hk⟩
    constructor
    · obtain ⟨i, j, hi, hij, hj, hall, locs, hlocs, _, _, hin⟩ := hv.locsByPeriod_some hk true (closed := "11") sch
      rw [getInterval_of_locs closedOk_11 (by rw [hp.locs]; exact hlocs), hin hout rfl, headCut_11, tailCut_11]
      simp only [Int.add_zero, Int.sub_zero, ite_self]
      exact (hv.yields_new hs hi hij hj).congr (fun k => (hall k).symm)
    · intro closed hc
      obtain ⟨i, j, hi, hij, hj, hall, locs, hlocs, _, hin, _⟩ := hv.locsByPeriod_some hk false (closed := closed) sch
      rw [getInterval_of_locs hc (by rw [hp.locs]; exact hlocs), hin hout rfl]
  · intro hk clip closed hc
    obtain ⟨locs, hlocs, hf⟩ := (hv.period_none hk clip (closed := closed) sch).2 hout
    rw [getInterval_of_locs hc (by rw [hp.locs]; exact hlocs), hf]

/-- **C35**, a period entirely before or after the timeboard: OutOfBoundsError; a period covering the whole timeboard gives
the whole timeboard. -/
theorem C35_outside_and_covering {tb : Timeboard L} (h : tb.Reachable) {sch : Option (Schedule L)} (hs : tb.OwnsOpt sch)
    {ref : IvlRef} {freq : Option Freq} {p : Period} (hp : PeriodRef ref freq p) :
    (p.endTime < tb.startTime ∨ tb.endTime < p.startTime → ∀ clip closed, closedOk closed →
      tb.getInterval (some ref) none freq clip closed sch = .error .outOfBounds) ∧
    (p.startTime < tb.startTime → tb.endTime < p.endTime → ∀ closed, closedOk closed →
      tb.Yields sch (tb.getInterval (some ref) none freq true closed sch) (fun k => 0 ≤ k ∧ k < tb.timeline.len)) := by
  have hv := h.valid
  have hse := p.start_le_end
  have hfr := hv.start_lt_end
  have hlen := hv.wf.len_pos
  constructor
  · intro ho clip closed hc
    refine (C35_clipping h hs hp ?_).2 ?_ clip closed hc
    · unfold Timeboard.Within; omega
    · intro k hk
      obtain ⟨hk0, hk1, hk2, hk3⟩ := hv.refIn_iff.1 hk
      have := hv.refTime_in_frame hk0 hk1
      omega
  · intro h1 h2 closed hc
    have hr : ∀ k, tb.RefIn p k ↔ (0 ≤ k ∧ k < tb.timeline.len) := by
      intro k
      rw [hv.refIn_iff]
      constructor
      · rintro ⟨h0, h1, _⟩; exact ⟨h0, h1⟩
      · rintro ⟨hk0, hk1⟩
        have := hv.refTime_in_frame hk0 hk1
        exact ⟨hk0, hk1, by omega, by omega⟩
    obtain ⟨i, j, hi, hij, hj, hall, locs, hlocs, _, _, hin⟩ := hv.locsByPeriod_some ((hr 0).2 ⟨by omega, hlen⟩) true (closed := closed) sch
    rw [getInterval_of_locs hc (by rw [hp.locs]; exact hlocs), hin (by unfold Timeboard.Within; omega) rfl, if_neg (by omega), if_neg (by omega)]
    exact (hv.yields_new hs hi hij hj).congr (fun k => by rw [← hall, hr])

/-- Monday 30 January - Sunday 5 February 2017 sticks out of `week`, the two years from 2016 cover it. -/
example : ¬ (week.Within (Period.ofTime fW (date 2017 1 30)).startTime ∧ week.Within (Period.ofTime fW (date 2017 1 30)).endTime) ∧
    showIvl (week.getInterval (some (.point (date 2017 1 30))) (period := some fW)) = .ok (29, 30, 2) ∧
    showIvl (week.getInterval (some (.point (date 2017 1 30))) (period := some fW) (clip := false)) = .error .partialOutOfBounds ∧
    showIvl (week.getInterval (some (.point (date 2016 7 1))) (period := some ⟨some 2, .A none, by decide⟩) (closed := "00")) = .ok (0, 30, 31) ∧
    showIvl (week.getInterval (some (.point (date 2017 7 1))) (period := some fM)) = .error .outOfBounds := by
  unfold Timeboard.Within; decide +kernel

/-- The two hours from 7:00 on 30 October overlap the beginning of `shifts` but no workshift ends in them. -/
example : showIvl (shifts.getInterval (some (.point (date 2017 10 30 + 7 * nsHour))) (period := some ⟨some 2, .H, by decide⟩)) =
    .error .outOfBounds := by decide +kernel

/-- **C36** (partial: the claim is true of the workshifts that remain, the kind of the error is not as documented).
For a clipped period `closed` takes away workshifts from the end which has not been clipped only.  When nothing is left, the
error is OutOfBoundsError, while an attempt to create an empty interval is documented to raise VoidIntervalError;
see `C36_negation`. -/
theorem C36_clipped_and_closed_partial {tb : Timeboard L} (h : tb.Reachable) {sch : Option (Schedule L)} (hs : tb.OwnsOpt sch)
    {ref : IvlRef} {freq : Option Freq} {p : Period} (hp : PeriodRef ref freq p)
    (hout : ¬ (tb.Within p.startTime ∧ tb.Within p.endTime)) {closed : String} (hc : closedOk closed)
    (hne : ∃ k, tb.RefIn p k) :
    ∃ i j, i ≤ j ∧ (∀ k, tb.RefIn p k ↔ (i ≤ k ∧ k ≤ j)) ∧
      (let lo := if tb.startTime ≤ p.startTime then i + headCut closed else i
       let hi := if p.endTime ≤ tb.endTime then j - tailCut closed else j
       (lo ≤ hi → tb.Yields sch (tb.getInterval (some ref) none freq true closed sch) (fun k => lo ≤ k ∧ k ≤ hi)) ∧
       (hi < lo → tb.getInterval (some ref) none freq true closed sch = .error .outOfBounds)) := by
  have hv := h.valid
  obtain ⟨k, hk⟩ := hne
  obtain ⟨hk0, hk1, hk2, hk3⟩ := hv.refIn_iff.1 hk
  have hfr := hv.refTime_in_frame hk0 hk1
  have hhc := headCut_cases closed
  have htc := tailCut_cases closed
  obtain ⟨i, j, hi, hij, hj, hall, locs, hlocs, _, _, hin⟩ := hv.locsByPeriod_some hk true (closed := closed) sch
  refine ⟨i, j, hij, hall, ?_⟩
  rw [getInterval_of_locs hc (by rw [hp.locs]; exact hlocs), hin hout rfl]
  have hzero : ¬ (tb.startTime ≤ p.startTime) → i = 0 := by
    intro hlt
    have h0 := hv.refTime_in_frame (k := 0) (by omega) (by omega)
    have hij' := (hv.refIn_iff.1 ((hall i).2 ⟨by omega, by omega⟩)).2.2
    have : tb.timeline.refTime 0 ≤ tb.timeline.refTime i := by
      rcases Int.lt_or_eq_of_le hi with hl | he
      · exact Int.le_of_lt (hv.wf.refTime_lt (by omega) hl (by omega))
      · subst he; omega
    have := (hall 0).1 (hv.refIn_iff.2 ⟨by omega, by omega, by omega, by omega⟩)
    omega
  have hlast : ¬ (p.endTime ≤ tb.endTime) → j = tb.timeline.len - 1 := by
    intro hlt
    have h0 := hv.refTime_in_frame (k := tb.timeline.len - 1) (by omega) (by omega)
    have hij' := (hv.refIn_iff.1 ((hall j).2 ⟨by omega, by omega⟩)).2.2
    have : tb.timeline.refTime j ≤ tb.timeline.refTime (tb.timeline.len - 1) := by
      by_cases hl : j < tb.timeline.len - 1
      · exact Int.le_of_lt (hv.wf.refTime_lt (by omega) hl (by omega))
      · have : j = tb.timeline.len - 1 := by omega
        subst this; omega
    have := (hall (tb.timeline.len - 1)).1 (hv.refIn_iff.2 ⟨by omega, by omega, by omega, by omega⟩)
    omega
  have hse := p.start_le_end
  unfold Timeboard.Within at hout
  constructor
  · intro hle
    refine hv.yields_new hs ?_ hle ?_
    · split <;> omega
    · split <;> omega
  · intro hlt
    rw [Interval.new_error_iff]
    refine .inl ⟨rfl, ?_⟩
    by_cases g1 : tb.startTime ≤ p.startTime <;> by_cases g2 : p.endTime ≤ tb.endTime <;> simp only [g1, g2, if_true, if_false] at hlt ⊢
    · omega
    · have := hlast g2; omega
    · have := hzero g1; omega
    · omega

/-- The claim of **C36** fails: Sunday 1 January 2017 is the only day of its week on the timeboard; with `closed='10'` it is
taken away and the error is OutOfBoundsError. -/
theorem C36_negation : ¬ ∀ (tb : Timeboard Int), tb.Reachable → ∀ (p : Period) (closed : String), closedOk closed →
    ∀ e, tb.getInterval (some (.period p)) none none true closed = .error e → (∃ k, tb.RefIn p k) → e = .voidInterval := by
  intro hall
  have := hall week week_reachable (Period.ofTime fW (date 2017 1 1)) "10" (by unfold closedOk; decide) .outOfBounds
    (by
      have h1 : showIvl (week.getInterval (some (.period (Period.ofTime fW (date 2017 1 1)))) none none true "10") = .error .outOfBounds := by
        decide +kernel
      unfold showIvl at h1
      cases hm : week.getInterval (some (.period (Period.ofTime fW (date 2017 1 1)))) none none true "10" with
      | ok v => rw [hm] at h1; cases h1
      | error e => rw [hm] at h1; simp only [Except.map, Except.error.injEq] at h1; rw [h1])
    ⟨0, week_reachable.valid.refIn_iff.2 (by decide +kernel)⟩
  cases this

/-- The same with the other end: 31 January, taken as the only day of the period 31 January - 1 February. -/
example : showIvl (week.getInterval (some (.period (Period.ofTime ⟨some 2, .D, by decide⟩ (date 2017 1 31))))) = .ok (30, 30, 1) ∧
    showIvl (week.getInterval (some (.period (Period.ofTime ⟨some 2, .D, by decide⟩ (date 2017 1 31)))) (closed := "01")) = .error .outOfBounds ∧
    showIvl (week.getInterval (some (.period (Period.ofTime ⟨some 2, .D, by decide⟩ (date 2017 1 31)))) (closed := "10")) = .ok (30, 30, 1) := by
  decide +kernel

/-- **C38.** Calling a timeboard with a single point in time gives the workshift containing it or OutOfBoundsError;
with a `pandas.Period` it does the same with the start of the period; with a pair of points it gives the interval as
`get_interval` does; with any other set of arguments the call is `get_interval`. -/
theorem C38_call {tb : Timeboard L} (h : tb.Reachable) :
    (∀ t, tb.call1 (.point t) = (tb.getWorkshift t).map .workshift ∧
      (tb.Within t → ∃ w, tb.call1 (.point t) = .ok (.workshift w) ∧ tb.At t w.loc) ∧
      (¬ tb.Within t → tb.call1 (.point t) = .error .outOfBounds)) ∧
    (∀ p, tb.call1 (.period p) = tb.call1 (.point p.startTime)) ∧
    (∀ a b, tb.call1 (.pair a b) = (tb.getInterval (some (.pair a b))).map .interval) ∧
    tb.call1 .short = .error .typeError ∧
    (∀ ref length period clip closed sch, tb.callN ref length period clip closed sch =
      (tb.getInterval ref length period clip closed sch).map .interval) := by
  have hv := h.valid
  have key : ∀ t, (tb.Within t → ∃ w, tb.getWorkshift t = .ok w ∧ tb.At t w.loc) ∧
      (¬ tb.Within t → tb.getWorkshift t = .error .outOfBounds) := by
    intro t
    constructor
    · intro ht
      obtain ⟨k, hk⟩ := hv.at_exists ht
      obtain ⟨w, hw, hwl, _⟩ := Workshift.exists_of_range hv none hk.1 hk.2.1
      exact ⟨w, by rw [hv.getWorkshift_of_within (hv.at_iff.1 hk), hw], by rw [hwl]; exact hk⟩
    · intro ht
      unfold Timeboard.getWorkshift
      rcases hv.locate_none t with ⟨k, hk, _⟩ | ⟨_, h2⟩ | ⟨_, h2⟩
      · exact absurd (hv.wf.position_in_frame hk) ht
      · rw [h2]
      · rw [h2]
  have hpt : ∀ t, tb.call1 (.point t) = (tb.getWorkshift t).map .workshift := by
    intro t
    unfold Timeboard.call1
    simp only [IvlRef.toTime?]
    by_cases ht : tb.Within t
    · obtain ⟨w, hw, _⟩ := (key t).1 ht
      rw [hw]; rfl
    · rw [(key t).2 ht]; rfl
  refine ⟨fun t => ⟨hpt t, ?_, ?_⟩, ?_, ?_, ?_, ?_⟩
  · intro ht
    obtain ⟨w, hw, hat⟩ := (key t).1 ht
    exact ⟨w, by rw [hpt, hw]; rfl, hat⟩
  · intro ht
    rw [hpt, (key t).2 ht]; rfl
  · intro p
    rw [hpt]
    unfold Timeboard.call1
    simp only [IvlRef.toTime?]
    by_cases ht : tb.Within p.startTime
    · obtain ⟨w, hw, _⟩ := (key _).1 ht
      rw [hw]; rfl
    · rw [(key _).2 ht]; rfl
  · intro a b
    unfold Timeboard.call1
    simp only [IvlRef.toTime?]
    cases tb.getInterval (some (.pair a b)) <;> rfl
  · rfl
  · intro ref length period clip closed sch
    unfold Timeboard.callN
    cases tb.getInterval ref length period clip closed sch <;> rfl

/-- What a call gave, for the examples. -/
def showCall (r : Except Err (CallResult Int)) : Except Err (Int × Int) :=
  r.map (fun c => match c with
    | .workshift w => (w.loc, -1)
    | .interval v => (v.lo, v.hi))

example : showCall (week.call1 (.point (date 2017 1 5))) = .ok (4, -1) ∧
    showCall (week.call1 (.period (Period.ofTime fW (date 2017 1 5)))) = .ok (1, -1) ∧
    showCall (week.call1 (.point (date 2018 1 5))) = .error .outOfBounds ∧
    showCall (week.call1 (.pair (some (date 2017 1 5)) none)) = .ok (4, 30) ∧
    showCall (week.callN none none none true "11" none) = .ok (0, 30) ∧
    showCall (week.callN (some (.point (date 2017 1 5))) (some 7) none true "11" none) = .ok (4, 10) := by
  decide +kernel

/-- **C43.** An interval is rebuilt from its start and end times, from its first and last workshifts (which stand for their
reference times), from its first workshift and its length. -/
theorem C43_rebuilt {tb : Timeboard L} (h : tb.Reachable) {v : Interval L} (hi : tb.HasInterval v) (hne : v.isVoid = false)
    {sch : Option (Schedule L)} (hs : tb.OwnsOpt sch) :
    (∃ a b, v.startTime tb = .ok (some a) ∧ v.endTime tb = .ok (some b) ∧
      tb.Yields sch (tb.getInterval (some (.pair (some a) (some b))) none none true "11" sch) (fun k => v.Contains tb k)) ∧
    (∃ w1 w2 r1 r2, v.first tb .any = .ok w1 ∧ v.last tb .any = .ok w2 ∧ w1.toTimestamp tb = .ok r1 ∧ w2.toTimestamp tb = .ok r2 ∧
      tb.Yields sch (tb.getInterval (some (.pair (some r1) (some r2))) none none true "11" sch) (fun k => v.Contains tb k) ∧
      tb.Yields sch (tb.getInterval (some (.point r1)) (some v.len) none true "11" sch) (fun k => v.Contains tb k) ∧
      tb.Yields sch (tb.getInterval (some (.point r2)) (some (-v.len)) none true "11" sch) (fun k => v.Contains tb k)) := by
  have hv := h.valid
  have wf := hv.wf
  have hf := hi.fine hv
  have hp : v.Proper tb := by
    rcases hf.shape with hp | hh
    · exact hp
    · rw [hh.void] at hne; cases hne
  have l0 := hp.lo_nonneg
  have l1 := hp.lo_le_hi
  have l2 := hp.hi_lt
  have hc : ∀ k, (v.lo ≤ k ∧ k ≤ v.hi) ↔ v.Contains tb k := fun k => (hf.contains_iff hv k).symm
  have hat : ∀ k t, 0 ≤ k → k < tb.timeline.len → tb.timeline.frame.unitStart (tb.timeline.bnd k) ≤ t →
      t < tb.timeline.frame.unitStart (tb.timeline.bnd (k + 1)) → tb.At t k := by
    intro k t h0 h1 h2 h3
    exact hv.at_iff.2 ((wf.wsPosition_ok_iff t k).2 ⟨h0, h1, h2, h3⟩)
  have hpair : ∀ a b, tb.At a v.lo → tb.At b v.hi →
      tb.Yields sch (tb.getInterval (some (.pair (some a) (some b))) none none true "11" sch) (fun k => v.Contains tb k) := by
    intro a b ha hb
    rw [hv.getInterval_pair ha hb closedOk_11]
    have := (hv.yields_cut hs l0 l2 "11").1
    rw [headCut_11, tailCut_11, Int.add_zero, Int.sub_zero] at this
    exact (this l1).congr hc
  constructor
  · refine ⟨tb.timeline.frame.unitStart (tb.timeline.bnd v.lo), tb.timeline.frame.unitStart (tb.timeline.bnd (v.hi + 1)) - 1, ?_, ?_, ?_⟩
    · unfold Interval.startTime; rw [hne, wf.wsStart_eq l0 (by omega)]; rfl
    · unfold Interval.endTime; rw [hne, wf.wsEnd_eq (by omega) l2]; rfl
    · have b1 := Frame.unitStart_lt (f := tb.timeline.frame) (wf.bnd_lt_bnd l0 (by omega : v.lo < v.lo + 1) (by omega))
      have b2 := Frame.unitStart_lt (f := tb.timeline.frame) (wf.bnd_lt_bnd (j := v.hi) (k := v.hi + 1) (by omega) (by omega) (by omega))
      exact hpair _ _ (hat _ _ l0 (by omega) (by omega) (by omega)) (hat _ _ (by omega) l2 (by omega) (by omega))
  · have hany := hv.dutyPositions_any v.schedule.selector l0 l2
    have hlenI : (intRange v.lo (v.hi + 1)).length = (v.hi + 1 - v.lo).toNat := by
      rw [length_intRange]
    have hfirst : v.first tb .any = Workshift.new tb v.lo (some v.schedule) := by
      unfold Interval.first
      rw [hp.nth_eq hv (sch := none) hf.owned (.inr (.inr rfl))]
      simp only [Option.getD_none, hany]
      rw [pyGet?_lt _ (by omega) (by omega), getElem_intRange]
      simp
    have hlast : v.last tb .any = Workshift.new tb v.hi (some v.schedule) := by
      unfold Interval.last
      rw [hp.nth_eq hv (sch := none) hf.owned (.inr (.inr rfl))]
      simp only [Option.getD_none, hany]
      rw [pyGet?_neg _ (by omega) (by omega), getElem_intRange]
      simp only
      congr 1
      omega
    obtain ⟨w1, hw1, _, _, _, _, _, hr1, _⟩ := Workshift.exists_of_range hv (some v.schedule) l0 (by omega : v.lo < tb.timeline.len)
    obtain ⟨w2, hw2, _, _, _, _, _, hr2, _⟩ := Workshift.exists_of_range hv (some v.schedule) (by omega : 0 ≤ v.hi) l2
    have a1 := wf.refTime_within l0 (by omega : v.lo < tb.timeline.len)
    have a2 := wf.refTime_within (by omega : 0 ≤ v.hi) l2
    have at1 := hat _ _ l0 (by omega) a1.1 a1.2
    have at2 := hat _ _ (by omega) l2 a2.1 a2.2
    refine ⟨w1, w2, _, _, by rw [hfirst, hw1], by rw [hlast, hw2], hr1, hr2, hpair _ _ at1 at2, ?_, ?_⟩
    · have e : v.len = v.hi - v.lo + 1 := hp.length_eq
      obtain ⟨_, g2, _⟩ := (C33_by_length h hs true closedOk_11 (tb.timeline.refTime v.lo) v.len).2.2 (by omega) _ at1
      rw [if_pos (by omega), if_pos (by omega), headCut_11, tailCut_11] at g2
      have := (g2 (by omega) (by omega)).1 (by omega)
      exact this.congr (fun k => by rw [← hc]; omega)
    · have e : v.len = v.hi - v.lo + 1 := hp.length_eq
      obtain ⟨_, g2, _⟩ := (C33_by_length h hs true closedOk_11 (tb.timeline.refTime v.hi) (-v.len)).2.2 (by omega) _ at2
      rw [if_neg (by omega), if_neg (by omega), headCut_11, tailCut_11] at g2
      have := (g2 (by omega) (by omega)).1 (by omega)
      exact this.congr (fun k => by rw [← hc]; omega)

example : (do
      let v ← Interval.new shifts (1, 3)
      let w1 ← v.first shifts .any
      let w2 ← v.last shifts .any
      let r1 ← w1.toTimestamp shifts
      let r2 ← w2.toTimestamp shifts
      let u ← shifts.getInterval (some (.pair (some r1) (some r2)))
      let t ← shifts.getInterval (some (.point r1)) (length := some v.len)
      return [u.lo, u.hi, t.lo, t.hi] : Except Err (List Int)) = .ok [1, 3, 1, 3] := by decide +kernel

/-- **C61** (partial: OutOfBoundsError is not always what is raised, contrary to the documentation; PartialOutOfBoundsError
is a ValueError and not a kind of OutOfBoundsError).  An interval by two points, given in order, or by length, which would
extend beyond the timeline is refused with OutOfBoundsError or PartialOutOfBoundsError. -/
theorem C61_extends_beyond_partial {tb : Timeboard L} (h : tb.Reachable) {sch : Option (Schedule L)} (hs : tb.OwnsOpt sch) (clip : Bool)
    {closed : String} (hc : closedOk closed) :
    (∀ a b, a ≤ b → ¬ (tb.Within a ∧ tb.Within b) →
      tb.getInterval (some (.pair (some a) (some b))) none none clip closed sch = .error .outOfBounds ∨
      tb.getInterval (some (.pair (some a) (some b))) none none clip closed sch = .error .partialOutOfBounds) ∧
    (∀ t k n, tb.At t k → n ≠ 0 → (k + n - 1 ≥ tb.timeline.len ∨ k + n + 1 < 0) →
      tb.getInterval (some (.point t)) (some n) none clip closed sch = .error .outOfBounds ∨
      tb.getInterval (some (.point t)) (some n) none clip closed sch = .error .partialOutOfBounds) := by
  have hse := h.valid.start_lt_end
  constructor
  · intro a b hab hout
    have := C31_out_of_range_bounds h sch clip hc (a := a) (b := b)
    unfold Timeboard.Within at *
    by_cases h1 : a < tb.startTime
    · by_cases h2 : b < tb.startTime
      · exact .inl (this.1 h1 h2)
      · by_cases h3 : b ≤ tb.endTime
        · exact .inr (this.2.2.1 h1 ⟨by omega, h3⟩)
        · exact .inr (this.2.2.2.2.1 h1 (by omega))
    · by_cases h2 : a ≤ tb.endTime
      · exact .inr (this.2.2.2.1 ⟨by omega, h2⟩ (by omega))
      · exact .inl (this.2.1 (by omega) (by omega))
  · intro t k n hat hn hout
    have h0 := hat.1
    have h1 := hat.2.1
    obtain ⟨_, _, g⟩ := (C33_by_length h hs clip hc t n).2.2 hn k hat
    refine .inr (g ?_)
    by_cases hpos : 0 < n
    · rw [if_pos hpos, if_pos hpos]; omega
    · rw [if_neg hpos, if_neg hpos]; omega

/-- The claim of **C61** fails: a length that goes beyond the end of the timeboard. -/
theorem C61_negation : ¬ ∀ (tb : Timeboard Int), tb.Reachable → ∀ t k n, tb.At t k → n ≠ 0 →
    (k + n - 1 ≥ tb.timeline.len ∨ k + n + 1 < 0) → tb.getInterval (some (.point t)) (some n) = .error .outOfBounds := by
  intro hall
  have h1 := hall week week_reachable (date 2017 1 31) 30 2 (week_reachable.valid.at_iff.2 (by decide +kernel)) (by decide) (by decide +kernel)
  have h2 : showIvl (week.getInterval (some (.point (date 2017 1 31))) (some 2)) = .error .partialOutOfBounds := by decide +kernel
  rw [h1] at h2
  cases h2

end TB
