import Verif.Spec.Points
import Verif.Lemmas.Intervals
/-! Lemmas on `get_interval`. -/
namespace TB
variable {L : Type}

theorem Timeboard.Valid.at_iff {tb : Timeboard L} (hv : tb.Valid) {t : Time} {k : Int} :
    tb.At t k ↔ tb.timeline.wsPosition t = .ok k := by
  have wf := hv.wf
  rw [wf.wsPosition_ok_iff]
  constructor
  · rintro ⟨h0, h1, w, a, b, hw, ha, hb, h2, h3⟩
    obtain ⟨w', hw', _, _, _, hs, he, _⟩ := Workshift.exists_of_range hv none h0 h1
    cases Workshift.ext_new hw hw'
    rw [hs] at ha; rw [he] at hb
    simp only [Except.ok.injEq] at ha hb
    exact ⟨h0, h1, by omega, by omega⟩
  · rintro ⟨h0, h1, h2, h3⟩
    obtain ⟨w', hw', _, _, _, hs, he, _⟩ := Workshift.exists_of_range hv none h0 h1
    exact ⟨h0, h1, w', _, _, hw', hs, he, h2, by omega⟩

theorem Timeboard.Valid.refIn_iff {tb : Timeboard L} (hv : tb.Valid) {p : Period} {k : Int} :
    tb.RefIn p k ↔ (0 ≤ k ∧ k < tb.timeline.len ∧ p.startTime ≤ tb.timeline.refTime k ∧ tb.timeline.refTime k ≤ p.endTime) := by
  constructor
  · rintro ⟨h0, h1, w, r, hw, hr, h2, h3⟩
    obtain ⟨w', hw', _, _, _, _, _, hr', _⟩ := Workshift.exists_of_range hv none h0 h1
    cases Workshift.ext_new hw hw'
    rw [hr'] at hr
    simp only [Except.ok.injEq] at hr
    exact ⟨h0, h1, by omega, by omega⟩
  · rintro ⟨h0, h1, h2, h3⟩
    obtain ⟨w', hw', _, _, _, _, _, hr', _⟩ := Workshift.exists_of_range hv none h0 h1
    exact ⟨h0, h1, w', _, hw', hr', h2, h3⟩

theorem Timeboard.Valid.at_exists {tb : Timeboard L} (hv : tb.Valid) {t : Time} (h : tb.Within t) : ∃ k, tb.At t k := by
  obtain ⟨c, hc⟩ := hv.wf.exists_position h.1 h.2
  exact ⟨c, hv.at_iff.2 hc⟩

theorem Timeboard.Valid.at_within {tb : Timeboard L} (hv : tb.Valid) {t : Time} {k : Int} (h : tb.At t k) : tb.Within t :=
  hv.wf.position_in_frame (hv.at_iff.1 h)

theorem Timeboard.Valid.start_lt_end {tb : Timeboard L} (hv : tb.Valid) : tb.startTime ≤ tb.endTime := by
  have wf := hv.wf
  have h1 := wf.refTime_within (k := 0) (by omega) wf.len_pos
  have h2 := Frame.unitStart_le_iff (f := tb.timeline.frame).2 (wf.bnd_le_bnd (j := 1) (k := tb.timeline.len) (by omega) (by have := wf.len_pos; omega) (by omega))
  rw [wf.unitStart_bnd_len] at h2
  have h3 := wf.bnd_zero
  rw [h3] at h1
  have : tb.timeline.frame.unitStart 0 = tb.timeline.frame.startTime := rfl
  unfold Timeboard.startTime Timeboard.endTime
  simp only [Int.zero_add] at h1
  omega

theorem Timeboard.Valid.locate_at {tb : Timeboard L} (hv : tb.Valid) {t : Time} {k : Int} (h : tb.At t k) :
    tb.locate t = .ok { pos := some k, side := 0 } := by
  have h' := hv.at_iff.1 h
  have := h.1
  unfold Timeboard.locate
  simp only [h']
  rw [if_neg (by omega)]

theorem Timeboard.Valid.locate_left {tb : Timeboard L} (hv : tb.Valid) {t : Time} (h : t < tb.startTime) :
    tb.locate t = .ok { pos := none, side := -1 } := by
  have := hv.start_lt_end
  rcases hv.locate_none t with ⟨k, hk, _⟩ | ⟨_, h2⟩ | ⟨h1, _⟩
  · have := hv.wf.position_in_frame hk
    unfold Timeboard.startTime at h; omega
  · exact h2
  · omega

theorem Timeboard.Valid.locate_right {tb : Timeboard L} (hv : tb.Valid) {t : Time} (h : tb.endTime < t) :
    tb.locate t = .ok { pos := none, side := 1 } := by
  have := hv.start_lt_end
  rcases hv.locate_none t with ⟨k, hk, _⟩ | ⟨h1, _⟩ | ⟨_, h2⟩
  · have := hv.wf.position_in_frame hk
    unfold Timeboard.endTime at h; omega
  · omega
  · exact h2

/-- `_locate(t, by_ref='after')`. -/
theorem Timeboard.Valid.locate_after {tb : Timeboard L} (hv : tb.Valid) (t : Time) :
    (t < tb.startTime ∧ tb.locate t .after = .ok { pos := none, side := -1 }) ∨
    (tb.endTime < t ∧ tb.locate t .after = .ok { pos := none, side := 1 }) ∨
    (tb.Within t ∧ (∀ j, 0 ≤ j → j < tb.timeline.len → tb.timeline.refTime j < t) ∧
      tb.locate t .after = .ok { pos := none, side := 1 }) ∨
    (tb.Within t ∧ ∃ k, 0 ≤ k ∧ k < tb.timeline.len ∧ t ≤ tb.timeline.refTime k ∧
      (∀ j, 0 ≤ j → j < k → tb.timeline.refTime j < t) ∧ tb.locate t .after = .ok { pos := some k, side := 0 }) := by
  have hse := hv.start_lt_end
  cases h : tb.timeline.posByRefAfter t with
  | ok k =>
    have h' := (hv.wf.posByRefAfter_ok_iff t k).1 h
    refine .inr (.inr (.inr ⟨⟨h'.1, h'.2.1⟩, k, h'.2.2.1, h'.2.2.2.1, h'.2.2.2.2.1, h'.2.2.2.2.2, ?_⟩))
    unfold Timeboard.locate
    simp only [h]
    rw [if_neg (by omega)]
  | error e =>
    have h' := (hv.wf.posByRefAfter_error_iff t e).1 h
    obtain ⟨rfl, h'⟩ := h'
    have hl : tb.locate t .after = if t < tb.startTime then .ok { pos := none, side := -1 }
        else .ok { pos := none, side := 1 } := by
      unfold Timeboard.locate
      simp only [h]
      split
      · rfl
      · split <;> rfl
    by_cases h1 : t < tb.startTime
    · exact .inl ⟨h1, by rw [hl, if_pos h1]⟩
    · rw [if_neg h1] at hl
      by_cases h2 : tb.endTime < t
      · exact .inr (.inl ⟨h2, hl⟩)
      · refine .inr (.inr (.inl ⟨⟨by omega, by omega⟩, ?_, hl⟩))
        rcases h' with h' | h' | h'
        · exact absurd h' h1
        · exact absurd h' h2
        · exact h'

/-- `_locate(t, by_ref='before')`. -/
theorem Timeboard.Valid.locate_before {tb : Timeboard L} (hv : tb.Valid) (t : Time) :
    (t < tb.startTime ∧ tb.locate t .before = .ok { pos := none, side := -1 }) ∨
    (tb.endTime < t ∧ tb.locate t .before = .ok { pos := none, side := 1 }) ∨
    (tb.Within t ∧ (∀ j, 0 ≤ j → j < tb.timeline.len → t < tb.timeline.refTime j) ∧
      tb.locate t .before = .ok { pos := none, side := -1 }) ∨
    (tb.Within t ∧ ∃ k, 0 ≤ k ∧ k < tb.timeline.len ∧ tb.timeline.refTime k ≤ t ∧
      (∀ j, k < j → j < tb.timeline.len → t < tb.timeline.refTime j) ∧ tb.locate t .before = .ok { pos := some k, side := 0 }) := by
  have hse := hv.start_lt_end
  cases h : tb.timeline.posByRefBefore t with
  | ok k =>
    have h' := (hv.wf.posByRefBefore_ok_iff t k).1 h
    refine .inr (.inr (.inr ⟨⟨h'.1, h'.2.1⟩, k, h'.2.2.1, h'.2.2.2.1, h'.2.2.2.2.1, h'.2.2.2.2.2, ?_⟩))
    unfold Timeboard.locate
    simp only [h]
    rw [if_neg (by omega)]
  | error e =>
    have h' := (hv.wf.posByRefBefore_error_iff t e).1 h
    obtain ⟨rfl, h'⟩ := h'
    have hl : tb.locate t .before = if t < tb.startTime then .ok { pos := none, side := -1 }
        else if tb.endTime < t then .ok { pos := none, side := 1 } else .ok { pos := none, side := -1 } := by
      unfold Timeboard.locate
      simp only [h]
    by_cases h1 : t < tb.startTime
    · exact .inl ⟨h1, by rw [hl, if_pos h1]⟩
    · rw [if_neg h1] at hl
      by_cases h2 : tb.endTime < t
      · rw [if_pos h2] at hl
        exact .inr (.inl ⟨h2, hl⟩)
      · rw [if_neg h2] at hl
        refine .inr (.inr (.inl ⟨⟨by omega, by omega⟩, ?_, hl⟩))
        rcases h' with h' | h' | h'
        · exact absurd h' h1
        · exact absurd h' h2
        · exact h'

/-! ### the parts of `get_interval` -/

theorem getInterval_of_locs {tb : Timeboard L} {ref : Option IvlRef} {length : Option Int} {period : Option Freq}
    {clip : Bool} {closed : String} {sch : Option (Schedule L)} {locs : Location × Location} (hc : closedOk closed)
    (h : tb.intervalLocs ref length period clip (decide (headCut closed = 1)) (decide (tailCut closed = 1)) = .ok locs) :
    tb.getInterval ref length period clip closed sch = tb.finishInterval locs sch := by
  have e1 : decide (headCut closed = 1) = decide (closed = "00" ∨ closed = "01") := by
    unfold headCut; split <;> simp_all
  have e2 : decide (tailCut closed = 1) = decide (closed = "00" ∨ closed = "10") := by
    unfold tailCut; split <;> simp_all
  rw [e1, e2] at h
  unfold Timeboard.getInterval
  rw [if_neg]
  · simp only [h]
  · unfold closedOk at hc
    simp
    rcases hc with h | h | h | h <;> simp [h]

theorem getInterval_of_error {tb : Timeboard L} {ref : Option IvlRef} {length : Option Int} {period : Option Freq}
    {clip : Bool} {closed : String} {sch : Option (Schedule L)} {e : Err} (hc : closedOk closed)
    (h : tb.intervalLocs ref length period clip (decide (headCut closed = 1)) (decide (tailCut closed = 1)) = .error e) :
    tb.getInterval ref length period clip closed sch = .error e := by
  have e1 : decide (headCut closed = 1) = decide (closed = "00" ∨ closed = "01") := by
    unfold headCut; split <;> simp_all
  have e2 : decide (tailCut closed = 1) = decide (closed = "00" ∨ closed = "10") := by
    unfold tailCut; split <;> simp_all
  rw [e1, e2] at h
  unfold Timeboard.getInterval
  rw [if_neg]
  · simp only [h]
  · unfold closedOk at hc
    simp
    rcases hc with h | h | h | h <;> simp [h]

theorem headCut_cases (c : String) : headCut c = 0 ∨ headCut c = 1 := by unfold headCut; split <;> simp
theorem tailCut_cases (c : String) : tailCut c = 0 ∨ tailCut c = 1 := by unfold tailCut; split <;> simp

theorem headAdd (c : String) (i : Int) : (if decide (headCut c = 1) then some (i + 1) else some i) = some (i + headCut c) := by
  rcases headCut_cases c with h | h <;> simp [h]
theorem tailSub (c : String) (i : Int) : (if decide (tailCut c = 1) then some (i - 1) else some i) = some (i - tailCut c) := by
  rcases tailCut_cases c with h | h <;> simp [h]

theorem strip_some_some (c : String) (i j : Int) (s t : Int) :
    stripLocs ({ pos := some i, side := s }, { pos := some j, side := t }) (decide (headCut c = 1)) (decide (tailCut c = 1)) =
      ({ pos := some (i + headCut c), side := s }, { pos := some (j - tailCut c), side := t }) := by
  unfold stripLocs
  simp only [Option.map_some, headAdd, tailSub]

theorem strip_none_some (c : String) (j : Int) (s t : Int) :
    stripLocs ({ pos := none, side := s }, { pos := some j, side := t }) (decide (headCut c = 1)) (decide (tailCut c = 1)) =
      ({ pos := none, side := s }, { pos := some (j - tailCut c), side := t }) := by
  unfold stripLocs
  simp only [Option.map_some, Option.map_none, ite_self, tailSub]

theorem strip_some_none (c : String) (i : Int) (s t : Int) :
    stripLocs ({ pos := some i, side := s }, { pos := none, side := t }) (decide (headCut c = 1)) (decide (tailCut c = 1)) =
      ({ pos := some (i + headCut c), side := s }, { pos := none, side := t }) := by
  unfold stripLocs
  simp only [Option.map_some, Option.map_none, ite_self, headAdd]

theorem strip_none_none (h t : Bool) (s u : Int) :
    stripLocs ({ pos := none, side := s }, { pos := none, side := u }) h t =
      ({ pos := none, side := s }, { pos := none, side := u }) := by
  unfold stripLocs
  simp

theorem finish_within {tb : Timeboard L} (sch : Option (Schedule L)) (i j : Int) :
    tb.finishInterval ({ pos := some i, side := 0 }, { pos := some j, side := 0 }) sch =
      if i ≤ j then Interval.new tb (i, j) sch else .error .voidInterval := by
  unfold Timeboard.finishInterval locationsInOrder
  by_cases h : i ≤ j <;> simp [h]

theorem finish_clipped {tb : Timeboard L} (sch : Option (Schedule L)) {i j s t : Int} (hs : s ≤ t) (h0 : ¬ (s = 0 ∧ t = 0)) :
    tb.finishInterval ({ pos := some i, side := s }, { pos := some j, side := t }) sch = Interval.new tb (i, j) sch := by
  unfold Timeboard.finishInterval locationsInOrder
  simp [h0, hs]

theorem finish_disorder {tb : Timeboard L} (sch : Option (Schedule L)) {p q : Option Int} {s t : Int} (hs : t < s) :
    tb.finishInterval ({ pos := p, side := s }, { pos := q, side := t }) sch = .error .voidInterval := by
  unfold Timeboard.finishInterval locationsInOrder
  have h0 : ¬ (s = 0 ∧ t = 0) := by omega
  have h1 : ¬ s ≤ t := by omega
  simp [h0, h1]

theorem finish_partial_left {tb : Timeboard L} (sch : Option (Schedule L)) {q : Int} {s t : Int} (hs : s ≤ t) (h0 : s ≠ 0) :
    tb.finishInterval ({ pos := none, side := s }, { pos := some q, side := t }) sch = .error .partialOutOfBounds := by
  unfold Timeboard.finishInterval locationsInOrder
  have h0 : ¬ (s = 0 ∧ t = 0) := by omega
  simp [h0, hs]

theorem finish_partial_right {tb : Timeboard L} (sch : Option (Schedule L)) {q : Int} {s t : Int} (hs : s ≤ t) (h0 : t ≠ 0) :
    tb.finishInterval ({ pos := some q, side := s }, { pos := none, side := t }) sch = .error .partialOutOfBounds := by
  unfold Timeboard.finishInterval locationsInOrder
  have h0 : ¬ (s = 0 ∧ t = 0) := by omega
  simp [h0, hs]

theorem finish_out {tb : Timeboard L} (sch : Option (Schedule L)) {s t : Int} (hs : s ≤ t) (h0 : t ≠ 0) :
    tb.finishInterval ({ pos := none, side := s }, { pos := none, side := t }) sch =
      if s = t then .error .outOfBounds else .error .partialOutOfBounds := by
  unfold Timeboard.finishInterval locationsInOrder
  have h0 : ¬ (s = 0 ∧ t = 0) := by omega
  simp [h0, hs]

/-- What `closed` does to an interval with known bounds. -/
def cutInterval (tb : Timeboard L) (i j : Int) (closed : String) (sch : Option (Schedule L)) : Except Err (Interval L) :=
  if i + headCut closed ≤ j - tailCut closed then Interval.new tb (i + headCut closed, j - tailCut closed) sch
  else .error .voidInterval

theorem intervalLocs_pair {tb : Timeboard L} {a b : Time} {x y : Location} {clip h t : Bool}
    (hx : tb.locate a = .ok x) (hy : tb.locate b = .ok y) :
    tb.intervalLocs (some (.pair (some a) (some b))) none none clip h t = .ok (stripLocs (x, y) h t) := by
  unfold Timeboard.intervalLocs Timeboard.locsFromReference
  simp only [hx, hy, Bind.bind, Except.bind, pure, Except.pure]

theorem Timeboard.Valid.getInterval_pair {tb : Timeboard L} (hv : tb.Valid) {a b : Time} {i j : Int}
    (ha : tb.At a i) (hb : tb.At b j) {clip : Bool} {closed : String} (hc : closedOk closed) (sch : Option (Schedule L)) :
    tb.getInterval (some (.pair (some a) (some b))) none none clip closed sch = cutInterval tb i j closed sch := by
  rw [getInterval_of_locs hc (intervalLocs_pair (hv.locate_at ha) (hv.locate_at hb)), strip_some_some, finish_within]
  rfl

theorem Timeboard.Valid.at_start {tb : Timeboard L} (hv : tb.Valid) : tb.At tb.startTime 0 := by
  have wf := hv.wf
  rw [hv.at_iff, wf.wsPosition_ok_iff]
  have h1 := wf.len_pos
  refine ⟨by omega, h1, ?_, ?_⟩
  · rw [wf.bnd_zero]; exact Int.le_refl _
  · have := Frame.unitStart_lt (f := tb.timeline.frame) (wf.bnd_lt_bnd (j := 0) (k := 1) (by omega) (by omega) (by omega))
    rw [wf.bnd_zero] at this
    exact this

theorem Timeboard.Valid.at_end {tb : Timeboard L} (hv : tb.Valid) : tb.At tb.endTime (tb.timeline.len - 1) := by
  have wf := hv.wf
  rw [hv.at_iff, wf.wsPosition_ok_iff]
  have h1 := wf.len_pos
  have h2 : tb.timeline.len - 1 + 1 = tb.timeline.len := by omega
  have h3 := Frame.unitStart_lt (f := tb.timeline.frame) (wf.bnd_lt_bnd (j := tb.timeline.len - 1) (k := tb.timeline.len) (by omega) (by omega) (by omega))
  have h4 := wf.unitStart_bnd_len
  refine ⟨by omega, by omega, ?_, ?_⟩
  · unfold Timeboard.endTime; omega
  · rw [h2]; unfold Timeboard.endTime; omega

theorem Timeboard.Valid.getInterval_null_left {tb : Timeboard L} (hv : tb.Valid) (b : Option Time) (clip : Bool)
    (closed : String) (sch : Option (Schedule L)) :
    tb.getInterval (some (.pair none b)) none none clip closed sch =
      tb.getInterval (some (.pair (some tb.startTime) b)) none none clip closed sch := by
  have h := hv.locate_at hv.at_start
  unfold Timeboard.getInterval Timeboard.intervalLocs Timeboard.locsFromReference
  simp only [h, Bind.bind, Except.bind, pure, Except.pure, Option.bind, getPeriod]

theorem Timeboard.Valid.getInterval_null_right {tb : Timeboard L} (hv : tb.Valid) (a : Option Time) (clip : Bool)
    (closed : String) (sch : Option (Schedule L)) :
    tb.getInterval (some (.pair a none)) none none clip closed sch =
      tb.getInterval (some (.pair a (some tb.endTime))) none none clip closed sch := by
  have h := hv.locate_at hv.at_end
  unfold Timeboard.getInterval Timeboard.intervalLocs Timeboard.locsFromReference
  simp only [h, Bind.bind, Except.bind, pure, Except.pure, Option.bind, getPeriod]

theorem getInterval_none (tb : Timeboard L) (clip : Bool) (closed : String) (sch : Option (Schedule L)) :
    tb.getInterval none none none clip closed sch = tb.getInterval (some (.pair none none)) none none clip closed sch := by
  unfold Timeboard.getInterval Timeboard.intervalLocs Timeboard.locsFromReference
  simp only [Bind.bind, Except.bind, pure, Except.pure]

/-! ### by length -/

theorem intervalLocs_length {tb : Timeboard L} {ref : Option IvlRef} {n : Int} {clip h t : Bool} :
    tb.intervalLocs ref (some n) none clip h t = tb.locsByLength ref n h t := rfl

/-- The same as a period, whether given by the object or by a point and a frequency. -/
theorem intervalLocs_period {tb : Timeboard L} {p : Period} {clip h t : Bool} :
    tb.intervalLocs (some (.period p)) none none clip h t = tb.locsByPeriod p clip h t := rfl

theorem intervalLocs_point {tb : Timeboard L} {a : Time} {f : Freq} {clip h t : Bool} :
    tb.intervalLocs (some (.point a)) none (some f) clip h t = tb.locsByPeriod (Period.ofTime f a) clip h t := rfl

theorem locsByPeriod_eq {tb : Timeboard L} {p : Period} {clip h t : Bool} {x y : Location}
    (hx : tb.locate p.startTime .after = .ok x) (hy : tb.locate p.endTime .before = .ok y) :
    tb.locsByPeriod p clip h t =
      .ok (let clipL : Bool := clip && decide (x.side = -1) && decide (y.side ≠ -1)
           let clipR : Bool := clip && decide (y.side = 1) && decide (x.side ≠ 1)
           let p0 := if clipL then some 0 else x.pos
           let p1 := if clipR then some (tb.timeline.len - 1) else y.pos
           stripLocs ({ x with pos := p0 }, { y with pos := p1 })
             (if clipL then false else h) (if clipR then false else t)) := by
  unfold Timeboard.locsByPeriod
  rw [hx, hy]
  rfl

theorem Period.start_le_end (p : Period) : p.startTime ≤ p.endTime := by
  unfold Period.startTime Period.endTime
  have := p.freq.mult_pos
  have := (p.freq.base.startOf_lt_iff p.ord (p.ord + p.freq.mult)).2 (by omega)
  omega


/-! ### periods -/

theorem Timeboard.Valid.refTime_in_frame {tb : Timeboard L} (hv : tb.Valid) {k : Int} (h0 : 0 ≤ k) (h1 : k < tb.timeline.len) :
    tb.startTime ≤ tb.timeline.refTime k ∧ tb.timeline.refTime k ≤ tb.endTime := by
  have wf := hv.wf
  have h := wf.refTime_within h0 h1
  have h3 := Frame.unitStart_le_iff (f := tb.timeline.frame).2 (wf.bnd_le_bnd (j := 0) (k := k) (by omega) (by omega) (by omega))
  have h4 := Frame.unitStart_le_iff (f := tb.timeline.frame).2 (wf.bnd_le_bnd (j := k + 1) (k := tb.timeline.len) (by omega) (by omega) (by omega))
  rw [wf.unitStart_bnd_len] at h4
  rw [wf.bnd_zero] at h3
  have : tb.timeline.frame.unitStart 0 = tb.timeline.frame.startTime := rfl
  unfold Timeboard.startTime Timeboard.endTime
  omega

/-- A period with workshifts referenced in it: they are in a row from `i` to `j`. -/
theorem Timeboard.Valid.period_some {tb : Timeboard L} (hv : tb.Valid) {p : Period} {k : Int} (hk : tb.RefIn p k) :
    ∃ i j, 0 ≤ i ∧ i ≤ j ∧ j < tb.timeline.len ∧ (∀ k, tb.RefIn p k ↔ (i ≤ k ∧ k ≤ j)) ∧
      ((p.startTime < tb.startTime ∧ i = 0 ∧ tb.locate p.startTime .after = .ok { pos := none, side := -1 }) ∨
       (tb.startTime ≤ p.startTime ∧ tb.locate p.startTime .after = .ok { pos := some i, side := 0 })) ∧
      ((tb.endTime < p.endTime ∧ j = tb.timeline.len - 1 ∧ tb.locate p.endTime .before = .ok { pos := none, side := 1 }) ∨
       (p.endTime ≤ tb.endTime ∧ tb.locate p.endTime .before = .ok { pos := some j, side := 0 })) := by
  have wf := hv.wf
  obtain ⟨hk0, hk1, hk2, hk3⟩ := hv.refIn_iff.1 hk
  have hfr := hv.refTime_in_frame hk0 hk1
  obtain ⟨i, hi0, hik, hiall, hil⟩ : ∃ i, 0 ≤ i ∧ i ≤ k ∧ (∀ m, 0 ≤ m → m < tb.timeline.len → (i ≤ m ↔ p.startTime ≤ tb.timeline.refTime m)) ∧
      ((p.startTime < tb.startTime ∧ i = 0 ∧ tb.locate p.startTime .after = .ok { pos := none, side := -1 }) ∨
       (tb.startTime ≤ p.startTime ∧ tb.locate p.startTime .after = .ok { pos := some i, side := 0 })) := by
    rcases hv.locate_after p.startTime with ⟨h1, h2⟩ | ⟨h1, h2⟩ | ⟨h1, h3, h2⟩ | ⟨h1, i, h4, h5, h6, h7, h2⟩
    · refine ⟨0, by omega, hk0, ?_, .inl ⟨h1, rfl, h2⟩⟩
      intro m hm0 hm1
      have := hv.refTime_in_frame hm0 hm1
      omega
    · omega
    · have := h3 k hk0 hk1; omega
    · refine ⟨i, h4, ?_, ?_, .inr ⟨h1.1, h2⟩⟩
      · rcases Int.lt_or_le k i with hlt | hle
        · have := h7 k hk0 hlt; omega
        · exact hle
      · intro m hm0 hm1
        constructor
        · intro hm
          rcases Int.lt_or_eq_of_le hm with hlt | heq
          · have := wf.refTime_lt h4 hlt hm1; omega
          · subst heq; exact h6
        · intro hm
          rcases Int.lt_or_le m i with hlt | hle
          · have := h7 m hm0 hlt; omega
          · exact hle
  obtain ⟨j, hkj, hj1, hjall, hjl⟩ : ∃ j, k ≤ j ∧ j < tb.timeline.len ∧ (∀ m, 0 ≤ m → m < tb.timeline.len → (m ≤ j ↔ tb.timeline.refTime m ≤ p.endTime)) ∧
      ((tb.endTime < p.endTime ∧ j = tb.timeline.len - 1 ∧ tb.locate p.endTime .before = .ok { pos := none, side := 1 }) ∨
       (p.endTime ≤ tb.endTime ∧ tb.locate p.endTime .before = .ok { pos := some j, side := 0 })) := by
    rcases hv.locate_before p.endTime with ⟨h1, h2⟩ | ⟨h1, h2⟩ | ⟨h1, h3, h2⟩ | ⟨h1, j, h4, h5, h6, h7, h2⟩
    · omega
    · refine ⟨tb.timeline.len - 1, by omega, by omega, ?_, .inl ⟨h1, rfl, h2⟩⟩
      intro m hm0 hm1
      have := hv.refTime_in_frame hm0 hm1
      omega
    · have := h3 k hk0 hk1; omega
    · refine ⟨j, ?_, h5, ?_, .inr ⟨h1.2, h2⟩⟩
      · rcases Int.lt_or_le j k with hlt | hle
        · have := h7 k hlt hk1; omega
        · exact hle
      · intro m hm0 hm1
        constructor
        · intro hm
          rcases Int.lt_or_eq_of_le hm with hlt | heq
          · have := wf.refTime_lt hm0 hlt h5; omega
          · subst heq; exact h6
        · intro hm
          rcases Int.lt_or_le j m with hlt | hle
          · have := h7 m hlt hm1; omega
          · exact hle
  refine ⟨i, j, hi0, by omega, hj1, ?_, hil, hjl⟩
  intro m
  rw [hv.refIn_iff]
  constructor
  · rintro ⟨h0, h1, h2, h3⟩
    exact ⟨(hiall m h0 h1).2 h2, (hjall m h0 h1).2 h3⟩
  · rintro ⟨h0, h1⟩
    exact ⟨by omega, by omega, (hiall m (by omega) (by omega)).1 h0, (hjall m (by omega) (by omega)).1 h1⟩

/-- A period with no workshift referenced in it. -/
theorem Timeboard.Valid.period_none {tb : Timeboard L} (hv : tb.Valid) {p : Period} (hk : ∀ k, ¬ tb.RefIn p k) (clip : Bool)
    {closed : String} (sch : Option (Schedule L)) :
    (tb.Within p.startTime → tb.Within p.endTime →
      ∃ locs, tb.locsByPeriod p clip (decide (headCut closed = 1)) (decide (tailCut closed = 1)) = .ok locs ∧
        tb.finishInterval locs sch = .error .voidInterval) ∧
    (¬ (tb.Within p.startTime ∧ tb.Within p.endTime) →
      ∃ locs, tb.locsByPeriod p clip (decide (headCut closed = 1)) (decide (tailCut closed = 1)) = .ok locs ∧
        tb.finishInterval locs sch = .error .outOfBounds) := by
  have wf := hv.wf
  have hse := p.start_le_end
  have hfr := hv.start_lt_end
  have hlen := wf.len_pos
  simp only [hv.refIn_iff] at hk
  rcases hv.locate_after p.startTime with ⟨h1, h2⟩ | ⟨h1, h2⟩ | ⟨h1, h3, h2⟩ | ⟨h1, i, h4, h5, h6, h7, h2⟩ <;>
  rcases hv.locate_before p.endTime with ⟨g1, g2⟩ | ⟨g1, g2⟩ | ⟨g1, g3, g2⟩ | ⟨g1, j, g4, g5, g6, g7, g2⟩ <;>
  rw [locsByPeriod_eq h2 g2] <;> unfold Timeboard.Within at *
  · refine ⟨by omega, fun _ => ⟨_, rfl, ?_⟩⟩
    simp [strip_none_none, finish_out]
  · have := hv.refTime_in_frame (k := 0) (by omega) hlen
    exact absurd ⟨by omega, hlen, by omega, by omega⟩ (hk 0)
  · refine ⟨by omega, fun _ => ⟨_, rfl, ?_⟩⟩
    simp [strip_none_none, finish_out]
  · have := hv.refTime_in_frame (k := j) (by omega) g5
    exact absurd ⟨by omega, g5, by omega, by omega⟩ (hk j)
  · omega
  · refine ⟨by omega, fun _ => ⟨_, rfl, ?_⟩⟩
    simp [strip_none_none, finish_out]
  · omega
  · omega
  · omega
  · refine ⟨by omega, fun _ => ⟨_, rfl, ?_⟩⟩
    simp [strip_none_none, finish_out]
  · refine ⟨fun _ _ => ⟨_, rfl, ?_⟩, by omega⟩
    simp [strip_none_none, finish_disorder]
  · refine ⟨fun _ _ => ⟨_, rfl, ?_⟩, by omega⟩
    simp [strip_none_some, finish_disorder]
  · omega
  · have := hv.refTime_in_frame (k := i) (by omega) h5
    exact absurd ⟨by omega, h5, by omega, by omega⟩ (hk i)
  · refine ⟨fun _ _ => ⟨_, rfl, ?_⟩, by omega⟩
    simp [strip_some_none, finish_disorder]
  · refine ⟨fun _ _ => ⟨_, rfl, ?_⟩, by omega⟩
    have hij : ¬ i ≤ j := by
      intro hij
      rcases Int.lt_or_eq_of_le hij with hlt | heq
      · have := wf.refTime_lt h4 hlt g5
        exact absurd ⟨by omega, by omega, by omega, by omega⟩ (hk i)
      · subst heq
        exact absurd ⟨by omega, by omega, by omega, by omega⟩ (hk i)
    have := headCut_cases closed
    have := tailCut_cases closed
    simp [strip_some_some, finish_within]
    omega

theorem Timeboard.Valid.yields_new {tb : Timeboard L} (hv : tb.Valid) {sch : Option (Schedule L)} (hs : tb.OwnsOpt sch)
    {i j : Int} (h0 : 0 ≤ i) (h1 : i ≤ j) (h2 : j < tb.timeline.len) :
    tb.Yields sch (Interval.new tb (i, j) sch) (fun k => i ≤ k ∧ k ≤ j) := by
  obtain ⟨v, hv'⟩ : ∃ v, Interval.new tb (i, j) sch = .ok v := ⟨_, Interval.new_ok_iff.2 ⟨h0, h1, h2, rfl⟩⟩
  have hh : tb.HasInterval v := .new hs hv'
  have hf := hh.fine hv
  obtain ⟨_, _, _, e⟩ := Interval.new_ok_iff.1 hv'
  have e1 : v.lo = i := by rw [e]
  have e2 : v.hi = j := by rw [e]
  refine ⟨v, hv', hh, by rw [e], by rw [e], fun k => ?_⟩
  rw [hf.contains_iff hv, e1, e2]

theorem Timeboard.Yields.congr {tb : Timeboard L} {sch : Option (Schedule L)} {r : Except Err (Interval L)} {P Q : Int → Prop}
    (h : tb.Yields sch r P) (hpq : ∀ k, P k ↔ Q k) : tb.Yields sch r Q := by
  obtain ⟨v, h1, h2, h3, h4, h5⟩ := h
  exact ⟨v, h1, h2, h3, h4, fun k => (h5 k).trans (hpq k)⟩

theorem Timeboard.Valid.yields_cut {tb : Timeboard L} (hv : tb.Valid) {sch : Option (Schedule L)} (hs : tb.OwnsOpt sch)
    {i j : Int} (h0 : 0 ≤ i) (h2 : j < tb.timeline.len) (closed : String) :
    (i + headCut closed ≤ j - tailCut closed →
      tb.Yields sch (cutInterval tb i j closed sch) (fun k => i + headCut closed ≤ k ∧ k ≤ j - tailCut closed)) ∧
    (j - tailCut closed < i + headCut closed → cutInterval tb i j closed sch = .error .voidInterval) := by
  have := headCut_cases closed
  have := tailCut_cases closed
  unfold cutInterval
  constructor
  · intro h
    rw [if_pos h]
    exact hv.yields_new hs (by omega) h (by omega)
  · intro h
    rw [if_neg (by omega)]

theorem headCut_11 : headCut "11" = 0 := by decide
theorem tailCut_11 : tailCut "11" = 0 := by decide
theorem closedOk_11 : closedOk "11" := .inr (.inr (.inr rfl))

/-- A period with workshifts referenced in it. -/
theorem Timeboard.Valid.locsByPeriod_some {tb : Timeboard L} (hv : tb.Valid) {p : Period} {k : Int} (hk : tb.RefIn p k) (clip : Bool)
    {closed : String} (sch : Option (Schedule L)) :
    ∃ i j, 0 ≤ i ∧ i ≤ j ∧ j < tb.timeline.len ∧ (∀ k, tb.RefIn p k ↔ (i ≤ k ∧ k ≤ j)) ∧
      ∃ locs, tb.locsByPeriod p clip (decide (headCut closed = 1)) (decide (tailCut closed = 1)) = .ok locs ∧
        (tb.Within p.startTime → tb.Within p.endTime → tb.finishInterval locs sch = cutInterval tb i j closed sch) ∧
        (¬ (tb.Within p.startTime ∧ tb.Within p.endTime) → clip = false → tb.finishInterval locs sch = .error .partialOutOfBounds) ∧
        (¬ (tb.Within p.startTime ∧ tb.Within p.endTime) → clip = true → tb.finishInterval locs sch =
          Interval.new tb (if tb.startTime ≤ p.startTime then i + headCut closed else i,
            if p.endTime ≤ tb.endTime then j - tailCut closed else j) sch) := by
  obtain ⟨hk0, hk1, hk2, hk3⟩ := hv.refIn_iff.1 hk
  have hfr := hv.refTime_in_frame hk0 hk1
  obtain ⟨i, j, h0, h1, h2, h3, h4, h5⟩ := hv.period_some hk
  refine ⟨i, j, h0, h1, h2, h3, ?_⟩
  rcases h4 with ⟨h4, h6, h7⟩ | ⟨h4, h7⟩ <;> rcases h5 with ⟨h5, h8, h9⟩ | ⟨h5, h9⟩ <;>
    rw [locsByPeriod_eq h7 h9] <;> refine ⟨_, rfl, ?_⟩ <;> unfold Timeboard.Within
  · refine ⟨by omega, ?_, ?_⟩
    · rintro _ rfl
      simp [strip_none_none, finish_out]
    · rintro _ rfl
      rw [if_neg (by omega), if_neg (by omega)]
      subst h6 h8
      exact finish_clipped sch (by simp) (by simp)
  · refine ⟨by omega, ?_, ?_⟩
    · rintro _ rfl
      simp [strip_none_some, finish_partial_left]
    · rintro _ rfl
      rw [if_neg (by omega), if_pos (by omega)]
      subst h6
      have e := tailSub closed j
      simp [stripLocs]
      simp at e
      rw [e]
      exact finish_clipped sch (by simp) (by simp)
  · refine ⟨by omega, ?_, ?_⟩
    · rintro _ rfl
      simp [strip_some_none, finish_partial_right]
    · rintro _ rfl
      rw [if_pos (by omega), if_neg (by omega)]
      subst h8
      have e := headAdd closed i
      simp [stripLocs]
      simp at e
      rw [e]
      exact finish_clipped sch (by simp) (by simp)
  · refine ⟨fun _ _ => ?_, by omega, by omega⟩
    simp [strip_some_some, finish_within]
    rfl

end TB
