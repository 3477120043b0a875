import Verif.Lemmas.Civil
import Verif.Props.GetInterval
import Verif.Props.Tiling
import Verif.Examples.Boards
/-!
# C116: calendar periods

Frequency strings mean the periods of the calendar on the wall.
-/
namespace TB
variable {L : Type}

/-- **C116**, days: the days are numbered in the order of the calendar, 1 January 1970 is number 0 and a Thursday; every day of the calendar
has its number. -/
theorem C116_calendar :
    Civil.ofDay 0 = ⟨1970, 1, 1⟩ ∧ weekday 0 = 3 ∧
    (∀ d, (Civil.ofDay d).Valid ∧ Civil.ofDay (d + 1) = (Civil.ofDay d).tomorrow ∧
      weekday (d + 1) = (if weekday d = 6 then 0 else weekday d + 1) ∧
      date (Civil.ofDay d).year (Civil.ofDay d).month (Civil.ofDay d).day = d * nsDay) ∧
    ∀ c : Civil, c.Valid → ∃ d, date c.year c.month c.day = d * nsDay ∧ Civil.ofDay d = c := by
  refine ⟨by decide +kernel, by decide, fun d => ⟨ofDay_valid d, ofDay_next d, ?_, ?_⟩, fun c hc => ⟨_, rfl, ofDay_dayNum hc⟩⟩
  · unfold weekday; split <;> omega
  · unfold date; rw [dayNum_ofDay]

/-- **C116**, periods: the period of a point in time begins with the latest beginning which is not after it, and ends just before the
first, or the n-th if multiplied by n, beginning after that. -/
theorem C116_periods (f : Freq) (t : Time) :
    let p := Period.ofTime f t
    p.startTime ≤ t ∧ f.denom.Begins p.startTime ∧ (∀ x, f.denom.Begins x → x ≤ t → x ≤ p.startTime) ∧
      ∃ bs : List Time, bs.length = f.mult ∧ bs.Pairwise (· < ·) ∧ bs.getLast? = some (p.endTime + 1) ∧
        ∀ x, x ∈ bs ↔ f.denom.Begins x ∧ p.startTime < x ∧ x ≤ p.endTime + 1 := by
  intro p
  have hb : ∀ x, f.denom.Begins x ↔ ∃ o, x = f.base.startOf o := begins_iff f.denom
  have hm := f.mult_pos
  refine ⟨f.base.startOf_le_self t, (hb _).2 ⟨_, rfl⟩, ?_, ?_⟩
  · intro x hx hxt
    obtain ⟨o, rfl⟩ := (hb x).1 hx
    show f.base.startOf o ≤ f.base.startOf (f.base.ordOf t)
    rw [Base.startOf_le_startOf]
    exact (f.base.startOf_le_iff o t).1 hxt
  · refine ⟨(List.range f.mult).map (fun i : Nat => f.base.startOf (p.ord + 1 + i)), by simp, ?_, ?_, ?_⟩
    · rw [List.pairwise_map]
      refine List.pairwise_lt_range.imp ?_
      intro a b hab
      rw [Base.startOf_lt_iff]
      omega
    · obtain ⟨n, hn⟩ : ∃ n, f.mult = n + 1 := ⟨f.mult - 1, by omega⟩
      rw [hn, List.range_succ, List.map_append, List.map_cons, List.map_nil, List.getLast?_concat]
      have e : p.endTime + 1 = f.base.startOf (p.ord + f.mult) := by
        show f.base.startOf (p.ord + f.mult) - 1 + 1 = _
        omega
      rw [e, hn]
      congr 2
      push_cast
      omega
    · intro x
      have e : p.endTime + 1 = f.base.startOf (p.ord + f.mult) := by
        show f.base.startOf (p.ord + f.mult) - 1 + 1 = _
        omega
      have e' : p.startTime = f.base.startOf p.ord := rfl
      rw [e, e', List.mem_map, hb]
      constructor
      · rintro ⟨i, hi, rfl⟩
        rw [List.mem_range] at hi
        rw [Base.startOf_lt_iff, Base.startOf_le_startOf]
        exact ⟨⟨_, rfl⟩, by omega, by omega⟩
      · rintro ⟨⟨o, rfl⟩, h1, h2⟩
        rw [Base.startOf_lt_iff] at h1
        rw [Base.startOf_le_startOf] at h2
        refine ⟨(o - p.ord - 1).toNat, List.mem_range.2 (by omega), ?_⟩
        congr 1
        omega

/-- **C116**, timeboards: base units and workshifts begin and end with calendar periods; the timeboard begins with the period which
contains `start`, and ends with that of `end` if the frequency is not multiplied. -/
theorem C116_timeboard {a : Args L} {heap heap' : Heap L} {tb : Timeboard L} (h : Timeboard.new a heap = .ok (tb, heap')) :
    a.freq.denom.Begins tb.startTime ∧ tb.startTime ≤ a.start ∧ (∀ x, a.freq.denom.Begins x → x ≤ a.start → x ≤ tb.startTime) ∧
    a.freq.denom.Begins (tb.endTime + 1) ∧ a.stop ≤ tb.endTime ∧
    (a.freq.mult = 1 → ∀ x, a.freq.denom.Begins x → a.stop < x → tb.endTime < x) ∧
    ∀ k, 0 ≤ k → k < tb.timeline.len → ∃ w x y, Workshift.new tb k = .ok w ∧ w.startTime tb = .ok x ∧ w.endTime tb = .ok y ∧
      a.freq.denom.Begins x ∧ a.freq.denom.Begins (y + 1) := by
  have hb : ∀ x, a.freq.denom.Begins x ↔ ∃ o, x = a.freq.base.startOf o := begins_iff a.freq.denom
  obtain ⟨n, hn, c1, c2, c3, _, c5, c6, c7⟩ := C03_frame_covers_range h
  have hfr : tb.timeline.frame.freq = a.freq := by
    obtain ⟨org, frame, tl0, tl, h1, h2, h3, h4, h5, rfl⟩ := Timeboard.new_ok_iff.1 h
    have e1 : tl.frame = frame := by
      rw [(Timeline.amend_frame h5).1, (Timeline.new_wf (Frame.new_valid h3) h4).2.1]
    obtain ⟨ho, hf⟩ := Frame.new_ok_iff.1 h3
    show tl.frame.freq = a.freq
    rw [e1, hf]
  have hr : tb.Reachable := .new h
  simp only [Period.startTime, Period.endTime, Period.ofTime] at c1 c2 c3 c5 c6 c7
  refine ⟨(hb _).2 ⟨_, c1.symm⟩, by omega, ?_, (hb _).2 ⟨a.freq.base.ordOf a.start + a.freq.mult * ((n : Int) - 1) + a.freq.mult, by omega⟩, by omega, ?_, ?_⟩
  · intro x hx hxa
    obtain ⟨o, rfl⟩ := (hb x).1 hx
    rw [← c1, Base.startOf_le_startOf]
    have := (a.freq.base.startOf_le_iff o a.start).1 hxa
    omega
  · intro h1 x hx hxa
    obtain ⟨o, rfl⟩ := (hb x).1 hx
    rw [a.freq.base.lt_startOf_iff] at hxa
    rw [a.freq.base.startOf_le_iff] at c6
    rw [← c5]
    have := (a.freq.base.startOf_le_startOf (a.freq.base.ordOf a.start + a.freq.mult * ((n : Int) - 1) + a.freq.mult) o).2 (by omega)
    omega
  · intro k h0 h1
    obtain ⟨w, hw, _, _, _, hs, he, _, _⟩ := Workshift.exists_of_range hr.valid none h0 h1
    refine ⟨w, _, _, hw, hs, he, (hb _).2 ⟨tb.timeline.frame.ord (tb.timeline.bnd k), ?_⟩,
      (hb _).2 ⟨tb.timeline.frame.ord (tb.timeline.bnd (k + 1)), ?_⟩⟩
    · rw [← hfr]; rfl
    · rw [← hfr]; unfold Frame.unitStart; omega

/-- `k` is the position of a workshift whose reference time is in the given stretch of time. -/
def Timeboard.RefersTo (tb : Timeboard L) (x y : Time) (k : Int) : Prop :=
  0 ≤ k ∧ k < tb.timeline.len ∧ ∃ w r, Workshift.new tb k = .ok w ∧ w.toTimestamp tb = .ok r ∧ x ≤ r ∧ r < y

/-- **C116**, intervals: the period given to `get_interval` is the calendar period which contains the point in time. -/
theorem C116_get_interval {tb : Timeboard L} (h : tb.Reachable) {sch : Option (Schedule L)} (hs : tb.OwnsOpt sch) (clip : Bool) {d : Denom}
    {t x y : Time} (hx : d.Begins x) (hxt : x ≤ t) (hy : d.Begins y) (hty : t < y) (hxy : ∀ z, d.Begins z → z ≤ x ∨ y ≤ z)
    (h1 : tb.Within x) (h2 : tb.Within (y - 1)) :
    ((∃ k, tb.RefersTo x y k) → tb.Yields sch (tb.getInterval (some (.point t)) none (some d.freq) clip "11" sch) (tb.RefersTo x y)) ∧
    ((∀ k, ¬ tb.RefersTo x y k) → tb.getInterval (some (.point t)) none (some d.freq) clip "11" sch = .error .voidInterval) := by
  have hv := h.valid
  have hp : PeriodRef (.point t) (some d.freq) (Period.ofTime d.freq t) := .inr ⟨t, _, rfl, rfl, rfl⟩
  obtain ⟨p1, p2, p3, bs, b1, _, b3, b4⟩ := C116_periods d.freq t
  have hm : d.freq.mult = 1 := rfl
  rw [hm] at b1
  obtain ⟨b, rfl⟩ := List.length_eq_one_iff.1 b1
  simp only [List.getLast?_singleton, Option.some.injEq] at b3
  have e1 : (Period.ofTime d.freq t).startTime = x := by
    have i1 := p3 x hx hxt
    rcases hxy _ p2 with i2 | i2 <;> omega
  have hy' := (b4 ((Period.ofTime d.freq t).endTime + 1)).1 (by rw [b3]; simp)
  have e2 : (Period.ofTime d.freq t).endTime + 1 = y := by
    have i3 : y ≤ (Period.ofTime d.freq t).endTime + 1 := by
      rcases hxy _ hy'.1 with i2 | i2 <;> omega
    have := (b4 y).2 ⟨hy, by omega, i3⟩
    simp only [List.mem_singleton] at this
    omega
  have href : ∀ k, tb.RefIn (Period.ofTime d.freq t) k ↔ tb.RefersTo x y k := by
    intro k
    unfold Timeboard.RefIn Timeboard.RefersTo
    rw [e1]
    constructor
    · rintro ⟨k0, k1, w, r, g1, g2, g3, g4⟩
      exact ⟨k0, k1, w, r, g1, g2, g3, by omega⟩
    · rintro ⟨k0, k1, w, r, g1, g2, g3, g4⟩
      exact ⟨k0, k1, w, r, g1, g2, g3, by omega⟩
  have main := C34_by_period h hs clip hp (by rw [e1]; exact h1) (by rw [show (Period.ofTime d.freq t).endTime = y - 1 by omega]; exact h2)
  rw [show tb.RefersTo x y = fun k => tb.RefIn (Period.ofTime d.freq t) k from funext (fun k => propext (href k).symm)]
  exact main

/-- Some days and beginnings: leap years, the end of a century, quarters and years which end otherwise. -/
example : (Civil.mk 2016 2 29).Valid ∧ ¬ (Civil.mk 1900 2 29).Valid ∧ (Civil.mk 2000 2 29).Valid ∧
    (Civil.mk 2016 2 28).tomorrow = ⟨2016, 2, 29⟩ ∧ (Civil.mk 1900 2 28).tomorrow = ⟨1900, 3, 1⟩ ∧
    (Civil.mk 2017 12 31).tomorrow = ⟨2018, 1, 1⟩ := by decide +kernel
example : (Denom.A (some 2)).Begins (date 2017 4 1) ∧ (Denom.Q (some 0)).Begins (date 2017 8 1) ∧ (Denom.W (some 2)).Begins (date 2017 1 5) := by
  refine ⟨⟨dayNum 2017 4 1, rfl, by decide +kernel⟩, ⟨dayNum 2017 8 1, rfl, by decide +kernel⟩, ⟨dayNum 2017 1 5, rfl, by decide +kernel⟩⟩
/-- The week of Wednesday 11 January 2017 begins on Monday 9 January and ends before Monday 16 January. -/
example : ∃ x y t, (Denom.W none).Begins x ∧ x ≤ t ∧ (Denom.W none).Begins y ∧ t < y ∧ (∀ z, (Denom.W none).Begins z → z ≤ x ∨ y ≤ z) ∧
    TB.Ex.week.Within x ∧ TB.Ex.week.Within (y - 1) ∧ ∃ k, TB.Ex.week.RefersTo x y k := by
  refine ⟨date 2017 1 9, date 2017 1 16, date 2017 1 11 + nsHour, ⟨dayNum 2017 1 9, rfl, by decide +kernel⟩, by decide +kernel,
    ⟨dayNum 2017 1 16, rfl, by decide +kernel⟩, by decide +kernel, ?_, by unfold Timeboard.Within; decide +kernel, by unfold Timeboard.Within; decide +kernel, ?_⟩
  · rintro z ⟨d, rfl, h⟩
    have e1 : date 2017 1 9 = 17175 * nsDay := by decide +kernel
    have e2 : date 2017 1 16 = 17182 * nsDay := by decide +kernel
    rw [e1, e2]
    unfold weekday at h
    unfold nsDay
    omega
  · refine ⟨8, by decide +kernel, by decide +kernel, ?_⟩
    obtain ⟨w, hw, _, _, _, _, _, hr, _⟩ := Workshift.exists_of_range TB.Ex.week_reachable.valid none (k := 8) (by decide +kernel) (by decide +kernel)
    exact ⟨w, _, hw, hr, by decide +kernel, by decide +kernel⟩
/-- Two weeks from the week of the point in time on. -/
example : (Period.ofTime ⟨some 2, .W none, by simp⟩ (date 2017 1 11)).startTime = date 2017 1 9 ∧
    (Period.ofTime ⟨some 2, .W none, by simp⟩ (date 2017 1 11)).endTime = date 2017 1 23 - 1 := by decide +kernel

end TB
