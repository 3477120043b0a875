import Verif.Lemmas.WorkingDays
import Verif.Props.Decrees
import Verif.Props.DecreeNorms
/-! Property C87: days, working days and working hours between two dates in the ready-made calendars. -/
namespace TB

/-- What `get_workshift` says about the labels of the days from `first` to `last`. -/
def dayLabels (tb : Timeboard Int) (first last : Int) : Except Err (List Int) :=
  (intRange first (last + 1)).mapM (fun D => labelAt (.ok tb) (D * nsDay))

/-- The interval consists of the days from `first` to `last`: begins and ends with them, is that long, counts the days with a
nonzero label as working days, those with zero as days off, and adds up the labels as hours. -/
def Interval.Tallies (v : Interval Int) (tb : Timeboard Int) (first last : Int) : Prop :=
  ∃ ls, dayLabels tb first last = .ok ls ∧ (ls.length : Int) = last - first + 1 ∧ v.len = last - first + 1 ∧
    v.startTime tb = .ok (some (first * nsDay)) ∧ v.endTime tb = .ok (some ((last + 1) * nsDay - 1)) ∧
    v.count tb = .ok ((ls.filter (fun l => l != 0)).length : Int) ∧
    v.count tb .off = .ok ((ls.filter (fun l => l == 0)).length : Int) ∧
    v.totalDuration tb = .ok ((ls.filter (fun l => l != 0)).length : Int) ∧
    v.worktime tb hours = .ok ((ls.sum : Int) : Rat)

theorem intRange_shift (d a b : Int) : (intRange a b).map (fun k => d + k) = intRange (d + a) (d + b) := by
  unfold intRange
  rw [List.map_map, show (d + b - (d + a)).toNat = (b - a).toNat by omega]
  apply List.map_congr_left
  intro i _
  simp only [Function.comp]
  omega

theorem sum_ones (l : List Int) (f : Int → Int) (h : ∀ k ∈ l, f k = 1) : (l.map f).sum = (l.length : Int) := by
  induction l with
  | nil => rfl
  | cons k l ih =>
    rw [List.map_cons, List.sum_cons, ih (fun x hx => h x (by simp [hx])), h k (by simp)]
    simp; omega

/-- An interval which consists of the workshifts of the days from `first` to `last`. -/
theorem tallies_of_contains {c : Calendar} (hc : Preconfigured c) {cs ce : Option Time} {dna oc : Bool}
    {custom : Option (List (Time × Int))} {heap : Heap Int} {tb : Timeboard Int} (h : c.new cs ce dna oc custom heap = .ok tb)
    {v : Interval Int} (hv : tb.HasInterval v) (hvoid : v.isVoid = false) (hsch : v.schedule = tb.defaultSchedule) {first last : Int} (hfl : first ≤ last)
    (hk : ∀ k, v.Contains tb k ↔ first ≤ dayOf tb.startTime + k ∧ dayOf tb.startTime + k ≤ last) : v.Tallies tb first last := by
  obtain ⟨hr, hsrc, hsel⟩ := hc.facts h
  have hvd := hr.valid
  have fv := hv.fine hvd
  have h0 := fv.nonneg
  have hlt := fv.lt
  have hlo : v.lo = first - dayOf tb.startTime ∧ v.hi = last - dayOf tb.startTime := by
    have a1 := (hk (first - dayOf tb.startTime)).2 (by omega)
    have a2 := (hk (last - dayOf tb.startTime)).2 (by omega)
    rw [fv.contains_iff hvd] at a1 a2
    have a3 := (hk v.lo).1 ((fv.contains_iff hvd _).2 (by omega))
    have a4 := (hk v.hi).1 ((fv.contains_iff hvd _).2 (by omega))
    omega
  obtain ⟨ls, xs, e1, e2, e3, e4, e5, e6⟩ := hc.sums h tb.defaultSchedule hsel
    (fun k => match tb.timeline.label k with | .ok l => dutyMatches .on tb.defaultSchedule.selector l | .error _ => false)
    (fun k => match tb.timeline.label k with | .ok l => dutyMatches .off tb.defaultSchedule.selector l | .error _ => false)
    (by intro k l hk; simp only [hk]) (by intro k l hk; simp only [hk]) (intRange v.lo (v.hi + 1)) (by
    intro k hk; rw [mem_intRange] at hk; omega)
  rw [intRange_shift, hlo.1, hlo.2, show dayOf tb.startTime + (first - dayOf tb.startTime) = first by omega,
    show dayOf tb.startTime + (last - dayOf tb.startTime + 1) = last + 1 by omega] at e1
  have hno : tb.OwnsOpt (none : Option (Schedule Int)) := by intro x hx; cases hx
  have hstep : ∀ k, 0 ≤ k → k < tb.timeline.len → tb.timeline.bnd (k + 1) - tb.timeline.bnd k = 1 := by
    intro k k0 k1
    obtain ⟨w, _, a, _, b, n1, _, _, _, _, _, _, _, _, g, _⟩ := (C42_durations_and_times hr).1 k (by omega) (by omega)
    have hin : tb.startTime ≤ a ∧ a ≤ tb.endTime := by
      apply Classical.byContradiction
      intro hn
      rw [(C02_get_workshift hr a none).2 hn] at g; cases g
    obtain ⟨w', g', _, _, d'⟩ := (C52_covers hc h).2.2 a hin.1 hin.2
    rw [g] at g'; cases g'
    obtain ⟨w1, hw1, _, _, _, _, _, _, hd⟩ := Workshift.exists_of_range hvd none (k := (k : Int)) (by omega) (by omega)
    rw [n1] at hw1; cases hw1
    rw [d'] at hd
    injection hd with hd
    omega
  have e2 : (tb.dutyPositions tb.defaultSchedule.selector .on v.lo v.hi).length = (ls.filter (fun l => l != 0)).length := by
    rw [← e2]; unfold Timeboard.dutyPositions; congr 2; funext k; cases tb.timeline.label k <;> rfl
  have e3 : (tb.dutyPositions tb.defaultSchedule.selector .off v.lo v.hi).length = (ls.filter (fun l => l == 0)).length := by
    rw [← e3]; unfold Timeboard.dutyPositions; congr 2; funext k; cases tb.timeline.label k <;> rfl
  rw [length_intRange, hlo.1, hlo.2] at e6
  refine ⟨ls, e1, by omega, ?_, ?_, ?_, ?_, ?_, ?_, ?_⟩
  · rw [fv.len_eq, length_intRange]; omega
  · unfold Interval.startTime
    rw [hvoid, hvd.wf.wsStart_eq h0.1 hlt.1, hc.grid' h h0.1 (by omega), hlo.1]
    simp only [Except.map]
    rw [show dayOf tb.startTime + (first - dayOf tb.startTime) = first by omega]; rfl
  · unfold Interval.endTime
    rw [hvoid, hvd.wf.wsEnd_eq h0.2 hlt.2, hc.grid' h (k := v.hi + 1) (by omega) (by omega), hlo.2]
    simp only [Except.map]
    rw [show dayOf tb.startTime + (last - dayOf tb.startTime + 1) = last + 1 by omega]; rfl
  · rw [fv.count_eq hvd hno (.inl rfl), Option.getD_none, hsch]
    rw [e2]
  · rw [fv.count_eq hvd hno (.inr (.inl rfl)), Option.getD_none, hsch]
    rw [e3]
  · rw [fv.totalDuration_eq hvd hno (.inl rfl), Option.getD_none, hsch, sum_ones]
    · rw [e2]
    · intro k hk
      unfold Timeboard.dutyPositions at hk
      have := (List.mem_filter.1 hk).1
      rw [mem_intRange] at this
      exact hstep k (by omega) (by omega)
  · rw [worktime_by_positions hr hv hno hours (.inl rfl), Option.getD_none, hsch, e4]
    simp only [Except.map]
    rw [e5]

/-- **C87.** In a ready-made calendar, whatever its options, `get_interval((a, b))` for two dates of the calendar is the days from the
day of the first date to the day of the second one. -/
theorem C87_between_dates {c : Calendar} (hc : Preconfigured c) {cs ce : Option Time} {dna oc : Bool}
    {custom : Option (List (Time × Int))} {heap : Heap Int} {tb : Timeboard Int} (h : c.new cs ce dna oc custom heap = .ok tb)
    {a b : Time} (ha : tb.Within a) (hb : tb.Within b) :
    (dayOf a ≤ dayOf b → ∃ v, tb.getInterval (some (.pair (some a) (some b))) = .ok v ∧ v.Tallies tb (dayOf a) (dayOf b)) ∧
    (dayOf b < dayOf a → tb.getInterval (some (.pair (some a) (some b))) = .error .voidInterval) := by
  obtain ⟨hr, _, _⟩ := hc.facts h
  have hno : tb.OwnsOpt (none : Option (Schedule Int)) := by intro x hx; cases hx
  obtain ⟨i, j, hi, hj, h1, h2⟩ := C30_two_points hr hno true ha hb
  have ei := hc.at_day h hi
  have ej := hc.at_day h hj
  constructor
  · intro hab
    obtain ⟨v, e, hv, hvoid, hs, hk⟩ := h1 (by omega)
    refine ⟨v, e, tallies_of_contains hc h hv hvoid hs hab ?_⟩
    intro k
    rw [hk]; omega
  · intro hab
    exact h2 (by omega)

/-- The calendar periods which consist of whole days. -/
def Freq.WholeDays (f : Freq) : Prop := f.base ≠ .S ∧ f.base ≠ .T ∧ f.base ≠ .H

theorem Base.startOf_midnight {b : Base} (h : b ≠ .S ∧ b ≠ .T ∧ b ≠ .H) (o : Int) : ∃ D, b.startOf o = D * nsDay := by
  rcases b with _ | _ | _ | _ | _ | _ | _ | _
  · exact absurd rfl h.1
  · exact absurd rfl h.2.1
  · exact absurd rfl h.2.2
  all_goals exact ⟨_, rfl⟩

/-- **C87**, calendar periods: the interval of a period of days, weeks, months, quarters or years lying within the calendar is the days
of the period. -/
theorem C87_by_period {c : Calendar} (hc : Preconfigured c) {cs ce : Option Time} {dna oc : Bool}
    {custom : Option (List (Time × Int))} {heap : Heap Int} {tb : Timeboard Int} (h : c.new cs ce dna oc custom heap = .ok tb)
    {ref : IvlRef} {freq : Option Freq} {p : Period} (hp : PeriodRef ref freq p) (hd : p.freq.WholeDays)
    (h1 : tb.Within p.startTime) (h2 : tb.Within p.endTime) :
    ∃ v, tb.getInterval (some ref) none freq = .ok v ∧ v.Tallies tb (dayOf p.startTime) (dayOf p.endTime) := by
  obtain ⟨hr, _, _⟩ := hc.facts h
  have hvd := hr.valid
  have hno : tb.OwnsOpt (none : Option (Schedule Int)) := by intro x hx; cases hx
  obtain ⟨D1, e1⟩ := Base.startOf_midnight hd p.ord
  obtain ⟨D2, e2⟩ := Base.startOf_midnight hd (p.ord + p.freq.mult)
  have hlt : p.startTime < p.endTime + 1 := by
    unfold Period.startTime Period.endTime
    have := (p.freq.base.startOf_lt_iff p.ord (p.ord + p.freq.mult)).2 (by have := p.freq.mult_pos; omega)
    omega
  have e1 : p.startTime = D1 * nsDay := e1
  have e2 : p.endTime = D2 * nsDay - 1 := by unfold Period.endTime; rw [e2]
  have d1 : dayOf p.startTime = D1 := by rw [e1, dayOf_mul]
  have d2 : dayOf p.endTime = D2 - 1 := by rw [e2]; unfold dayOf nsDay; omega
  have hlen : D1 < D2 := by rw [e1, e2] at hlt; unfold nsDay at hlt; omega
  have href : ∀ k, tb.RefIn p k ↔ 0 ≤ k ∧ k < tb.timeline.len ∧ D1 ≤ dayOf tb.startTime + k ∧ dayOf tb.startTime + k ≤ D2 - 1 := by
    intro k
    rw [hvd.refIn_iff]
    constructor
    · rintro ⟨k0, k1, r1, r2⟩
      unfold Timeline.refTime at r1 r2
      rw [hc.ref_start h] at r1 r2
      simp only [Bool.false_eq_true, if_false] at r1 r2
      rw [hc.grid' h k0 (by omega)] at r1 r2
      rw [e1] at r1; rw [e2] at r2
      unfold nsDay at r1 r2
      omega
    · rintro ⟨k0, k1, r1, r2⟩
      refine ⟨k0, k1, ?_⟩
      unfold Timeline.refTime
      rw [hc.ref_start h]
      simp only [Bool.false_eq_true, if_false]
      rw [hc.grid' h k0 (by omega), e1, e2]
      unfold nsDay
      omega
  obtain ⟨i, hi⟩ := hvd.at_exists h1
  obtain ⟨j, hj⟩ := hvd.at_exists h2
  have ei := hc.at_day h hi
  have ej := hc.at_day h hj
  have i0 := hi.1
  have j1 := hj.2.1
  have i1 := hi.2.1
  obtain ⟨v, e, hv, hvoid, hs, hk⟩ := (C34_by_period hr hno true hp h1 h2).1 ⟨i, (href i).2 (by omega)⟩
  refine ⟨v, e, tallies_of_contains hc h hv hvoid hs (by omega) ?_⟩
  intro k
  rw [hk]
  show tb.RefIn p k ↔ _
  rw [href]; omega

theorem mapM_ok_map {α β : Type} (f : α → Except Err β) (g : α → β) (l : List α) (h : ∀ x ∈ l, f x = .ok (g x)) :
    l.mapM f = .ok (l.map g) := by
  induction l with
  | nil => rfl
  | cons x l ih =>
    rw [List.mapM_cons, h x (by simp), ih (fun y hy => h y (by simp [hy]))]; rfl

theorem mem_daysOfYear {y D : Int} : D ∈ daysOfYear y ↔ dayNum y 1 1 ≤ D ∧ D < dayNum (y + 1) 1 1 := by
  have : daysOfYear y = intRange (dayNum y 1 1) (dayNum (y + 1) 1 1) := rfl
  rw [this, mem_intRange]

theorem newYear (y : Int) : dayNum y 1 1 = yearStart y := by
  obtain ⟨_, _, _, h, _⟩ := dayNum_ru y
  rw [h 1]; omega

theorem year_pos (y : Int) : dayNum y 1 1 < dayNum (y + 1) 1 1 := by
  rw [newYear, newYear]
  obtain ⟨l, _, h, _⟩ := dayNum_ru y
  omega

theorem year_of_day {y D : Int} (h1 : dayNum y 1 1 ≤ D) (h2 : D < dayNum (y + 1) 1 1) : yearOf D = y := by
  rw [newYear] at h1 h2
  exact inYear_iff.1 ⟨h1, h2⟩

theorem monthOf_year (d : Int) : 12 * (yearOf d - 1970) ≤ monthOf d ∧ monthOf d < 12 * (yearOf d - 1970) + 12 := by
  obtain ⟨h1, h2⟩ := yearOf_spec d
  have hs := yearStart_succ (yearOf d)
  have h12 := daysBefore_twelve (yearOf d)
  obtain ⟨m0, m1, _, _⟩ := monthInYear_spec (yearOf d) (d - yearStart (yearOf d)) (by omega) (by omega)
  unfold monthOf
  omega

theorem year_start (y : Int) : (Denom.A none).freq.base.startOf (y - 1970) = dayNum y 1 1 * nsDay := by
  show monthStart (12 * (y - 1970) + 0) * nsDay = (monthStart (12 * (y - 1970) + (1 - 1)) + (1 - 1)) * nsDay
  simp

/-- **C87**, the Russian calendar: with the default options, the interval of any year lying within the calendar has the official numbers of
working days and hours. -/
theorem C87_norms {cs ce : Option Time} {heap : Heap Int} {tb : Timeboard Int}
    (h : (ruCalendar true true).new cs ce false false none heap = .ok tb) (t : Time)
    (h1 : tb.startTime ≤ dayNum (yearOf (dayOf t)) 1 1 * nsDay) (h2 : dayNum (yearOf (dayOf t) + 1) 1 1 * nsDay - 1 ≤ tb.endTime)
    (days hrs : Int) (hn : (yearOf (dayOf t), days, hrs) ∈ norms) :
    ∃ v, tb.getInterval (some (.point t)) none (some (Denom.A none).freq) = .ok v ∧ v.count tb = .ok days ∧ v.worktime tb hours = .ok (hrs : Rat) := by
  have hp : PeriodRef (.point t) (some (Denom.A none).freq) (Period.ofTime (Denom.A none).freq t) := .inr ⟨t, _, rfl, rfl, rfl⟩
  have hm := monthOf_year (dayOf t)
  have ho : (Denom.A none).freq.base.ordOf t = yearOf (dayOf t) - 1970 := by
    show (monthOf (dayOf t) - 0) / 12 = _
    omega
  have e1 : (Period.ofTime (Denom.A none).freq t).startTime = dayNum (yearOf (dayOf t)) 1 1 * nsDay := by
    show (Denom.A none).freq.base.startOf ((Denom.A none).freq.base.ordOf t) = _
    rw [ho]; exact year_start _
  have e2 : (Period.ofTime (Denom.A none).freq t).endTime = dayNum (yearOf (dayOf t) + 1) 1 1 * nsDay - 1 := by
    show (Denom.A none).freq.base.startOf ((Denom.A none).freq.base.ordOf t + 1) - 1 = _
    rw [ho, show yearOf (dayOf t) - 1970 + 1 = (yearOf (dayOf t) + 1) - 1970 by omega, year_start]
  generalize yearOf (dayOf t) = y at *
  have hlt : dayNum y 1 1 < dayNum (y + 1) 1 1 := year_pos y
  have hse : dayNum y 1 1 * nsDay ≤ dayNum (y + 1) 1 1 * nsDay - 1 := by unfold nsDay; omega
  obtain ⟨v, hv, ls, l1, l2, _, _, _, l3, _, _, l4⟩ := C87_by_period (.ru true true) h hp
    (show Freq.WholeDays (Denom.A none).freq from ⟨by decide, by decide, by decide⟩)
    (by rw [e1]; exact ⟨h1, by omega⟩) (by rw [e2]; exact ⟨by omega, h2⟩)
  have d1 : dayOf (dayNum y 1 1 * nsDay) = dayNum y 1 1 := dayOf_mul _
  have d2 : dayOf (dayNum (y + 1) 1 1 * nsDay - 1) = dayNum (y + 1) 1 1 - 1 := by unfold dayOf nsDay; omega
  rw [e1, e2, d1, d2] at l1
  have hlab : ∀ D ∈ daysOfYear y, labelAt (.ok tb) (D * nsDay) = .ok (ruHours true true y D) ∧ 0 ≤ ruHours true true y D := by
    intro D hD
    have hD := mem_daysOfYear.1 hD
    have b1 : tb.startTime ≤ D * nsDay := by unfold nsDay at *; omega
    have b2 : D * nsDay ≤ tb.endTime := by unfold nsDay at *; omega
    have := C65_ru_labels h (D * nsDay) b1 b2
    rw [dayOf_mul, year_of_day hD.1 hD.2] at this
    obtain ⟨l, q1, q2⟩ := ru_between h (D * nsDay) b1 b2
    rw [this] at q1
    injection q1 with q1
    refine ⟨this, ?_⟩
    simp only [if_true] at q2
    omega
  have hls : ls = (daysOfYear y).map (ruHours true true y) := by
    have : dayLabels tb (dayNum y 1 1) (dayNum (y + 1) 1 1 - 1) = .ok ((daysOfYear y).map (ruHours true true y)) := by
      unfold dayLabels
      rw [show intRange (dayNum y 1 1) (dayNum (y + 1) 1 1 - 1 + 1) = daysOfYear y by
        unfold intRange daysOfYear
        rw [show dayNum (y + 1) 1 1 - 1 + 1 - dayNum y 1 1 = dayNum (y + 1) 1 1 - dayNum y 1 1 by omega]]
      exact mapM_ok_map _ _ _ (fun D hD => (hlab D hD).1)
    rw [this] at l1
    injection l1 with l1
    exact l1.symm
  obtain ⟨n1, n2⟩ := C65_norms _ hn
  simp only at n1 n2
  refine ⟨v, hv, ?_, ?_⟩
  · rw [l3, ← n1, hls]
    congr 2
    congr 1
    apply List.filter_congr
    intro x hx
    obtain ⟨D, hD, rfl⟩ := List.mem_map.1 hx
    have := (hlab D hD).2
    rw [Bool.eq_iff_iff]
    simp
    omega
  · rw [l4, hls, n2]

/-- **C87**, the Russian calendar as it is by default exists, and every year from 2005 to 2021 has the official numbers. -/
theorem C87_norms_default : ∃ tb, (ruCalendar).new = .ok tb ∧ ∀ p ∈ norms, ∀ t, yearOf (dayOf t) = p.1 →
    ∃ v, tb.getInterval (some (.point t)) none (some (Denom.A none).freq) = .ok v ∧ v.count tb = .ok p.2.1 ∧
      v.worktime tb hours = .ok (p.2.2 : Rat) := by
  obtain ⟨tb, ht⟩ := ((C52_builds (.ru true true) none none (by simp) (fun _ => Cycle.start [])).2 (by decide)).1
  refine ⟨tb, ht, ?_⟩
  intro p hp t hy
  obtain ⟨r1, r2⟩ := (C52_ranges (ruCalendar true true) 2005 2021 (.inr ⟨⟨_, _, rfl⟩, rfl, rfl⟩)).2.2 _ _ _ _ tb ht
  have hr : 2005 ≤ p.1 ∧ p.1 ≤ 2021 := by
    have : ∀ p ∈ norms, 2005 ≤ p.1 ∧ p.1 ≤ 2021 := by decide
    exact this p hp
  have q1 : ∀ y : Int, 2005 ≤ y → dayNum 2005 1 1 ≤ dayNum y 1 1 := by
    intro y h; rw [newYear, newYear]; exact yearStart_le h
  have q2 : ∀ y : Int, y ≤ 2022 → dayNum y 1 1 ≤ dayNum 2022 1 1 := by
    intro y h; rw [newYear, newYear]; exact yearStart_le h
  have q3 := q1 p.1 hr.1
  have q4 := q2 (p.1 + 1) (by omega)
  refine C87_norms ht t ?_ ?_ p.2.1 p.2.2 (by rw [hy]; exact hp)
  · rw [r1, hy]; unfold date nsDay; omega
  · rw [r2, hy]
    show _ ≤ date 2022 1 1 - 1
    unfold date nsDay; omega

/-- The hypotheses are met: twelve days of December 2017 in the American calendar, from the afternoon of the 20th to the morning of the
31st, and the week from 25 to 31 December; custom hours on the 26th. -/
def december : Except Err (Timeboard Int) :=
  (usCalendar).new (some (date 2017 12 20)) (some (date 2017 12 31)) false false (some [(date 2017 12 26, 3)])

example : (do
    let tb ← december
    let v ← tb.getInterval (some (.pair (some (date 2017 12 20 + 15 * nsHour)) (some (date 2017 12 31 + 6 * nsHour))))
    let n ← v.count tb
    let m ← v.count tb .off
    let x ← v.worktime tb hours
    return (v.len, n, m, x)) = .ok (12, 7, 5, 51) := by decide +kernel
example : (december.bind (fun tb => dayLabels tb (dayNum 2017 12 20) (dayNum 2017 12 31))) = .ok [8, 8, 8, 0, 0, 0, 3, 8, 8, 8, 0, 0] := by
  decide +kernel
example : (do
    let tb ← december
    let v ← tb.getInterval (some (.point (date 2017 12 28))) none (some (Denom.W none).freq)
    let n ← v.count tb
    let x ← v.worktime tb hours
    return (v.len, n, x)) = .ok (7, 4, 27) := by decide +kernel

end TB
