import Verif.Props.Worktime
import Verif.Props.Calendars
import Verif.Props.Tiling
/-! Property C80: work time in proportion to the number of workshifts, and hours of the ready-made calendars. -/
namespace TB
variable {L : Type}

theorem worktimes_between {tb : Timeboard L} (num : L → Option Rat) (s : Schedule L) {d : Duty}
    (hd : d = .on ∨ d = .off ∨ d = .any) (p q : Rat) (P : Int → Bool)
    (hP : ∀ k l, tb.timeline.label k = .ok l → P k = dutyMatches d s.selector l) (ws : List (Workshift L))
    (hl : ∀ w ∈ ws, tb.timeline.label w.loc = .ok w.label)
    (hb : ∀ w ∈ ws, dutyMatches d s.selector w.label = true → ∃ x, w.worktime tb num d (some s) = .ok x ∧ p ≤ x ∧ x ≤ q) :
    ∃ xs, ws.mapM (fun w : Workshift L => w.worktime tb num d (some s)) = .ok xs ∧
      p * ((((ws.map (fun w : Workshift L => w.loc)).filter P).length : Int) : Rat) ≤ xs.sum ∧
      xs.sum ≤ q * ((((ws.map (fun w : Workshift L => w.loc)).filter P).length : Int) : Rat) := by
  induction ws with
  | nil => exact ⟨[], rfl, by simp, by simp⟩
  | cons w ws ih =>
    have h1 := hl w (by simp)
    obtain ⟨xs, e, i1, i2⟩ := ih (fun x hx => hl x (by simp [hx])) (fun x hx => hb x (by simp [hx]))
    have hw := hP _ _ h1
    rw [List.map_cons, List.filter_cons, hw, List.mapM_cons]
    cases hm : dutyMatches d s.selector w.label with
    | false =>
      have := Workshift.worktime_eq h1 num s hd
      rw [hm] at this
      refine ⟨0 :: xs, by simp [this, e, bind, Except.bind, pure, Except.pure], ?_, ?_⟩
      · simpa [Rat.zero_add] using i1
      · simpa [Rat.zero_add] using i2
    | true =>
      obtain ⟨x, hx, b1, b2⟩ := hb w (by simp) hm
      refine ⟨x :: xs, by simp [hx, e, bind, Except.bind, pure, Except.pure], ?_, ?_⟩
      · simp only [if_true, List.length_cons, List.sum_cons, Int.natCast_add, Rat.intCast_add]
        grind
      · simp only [if_true, List.length_cons, List.sum_cons, Int.natCast_add, Rat.intCast_add]
        grind

/-- **C80.** If each workshift of an interval which has the duty counts for at least `p` and at most `q`, then the work time of the
interval is between `p` and `q` times the number of these workshifts; in particular it is `p` times the number when each counts for `p`. -/
theorem C80_between {tb : Timeboard L} (h : tb.Reachable) {v : Interval L} (hv : tb.HasInterval v)
    {s : Option (Schedule L)} (hs : tb.OwnsOpt s) (num : L → Option Rat) {d : Duty} (hd : d = .on ∨ d = .off ∨ d = .any) (p q : Rat)
    (hb : ∀ k w, v.Contains tb k → Workshift.new tb k (some (s.getD v.schedule)) = .ok w → w.HasDuty tb (s.getD v.schedule) d →
      ∃ x, w.worktime tb num d (some (s.getD v.schedule)) = .ok x ∧ p ≤ x ∧ x ≤ q) :
    ∃ (n : Int) (x : Rat), v.count tb d s = .ok n ∧ v.worktime tb num d s = .ok x ∧ p * n ≤ x ∧ x ≤ q * n := by
  have hvd := h.valid
  have fv := hv.fine hvd
  obtain ⟨ws, h1, h2, h3⟩ := fv.workshifts_spec hvd (sch := none) (by intro x hx; cases hx) (duty := .any) (.inr (.inr rfl))
  have h0 := fv.nonneg
  have hlt := fv.lt
  rw [hvd.dutyPositions_any _ (by omega) (by omega)] at h2
  have hiter : v.iter tb = .ok ws := h1
  have hmem : ∀ w ∈ ws, v.lo ≤ w.loc ∧ w.loc ≤ v.hi := by
    intro w hw
    have : w.loc ∈ ws.map (fun w => w.loc) := List.mem_map.2 ⟨w, hw, rfl⟩
    rw [h2, mem_intRange] at this
    omega
  obtain ⟨xs, e, b1, b2⟩ := worktimes_between (tb := tb) num (s.getD v.schedule) hd p q
    (fun k => match tb.timeline.label k with
      | .ok l => dutyMatches d (s.getD v.schedule).selector l
      | .error _ => false) (by intro k l hk; simp only [hk]) ws (fun w hw => (h3 w hw).2) (by
    intro w hw hm
    have hr := hmem w hw
    obtain ⟨w', hw', e1, _, e2, _⟩ := Workshift.exists_of_range hvd (some (s.getD v.schedule)) (k := w.loc) (by omega) (by omega)
    have hlab := (h3 w hw).2
    rw [hlab] at e2; injection e2 with e2
    have hl' : tb.timeline.label w'.loc = .ok w'.label := by rw [e1, hlab, e2]
    obtain ⟨x, hx, b⟩ := hb w.loc w' ((fv.contains_iff hvd _).2 hr) hw'
      ((Workshift.hasDuty_iff hl' _ _).2 (by rw [← e2]; exact hm))
    refine ⟨x, ?_, b⟩
    rw [Workshift.worktime_eq hlab num _ hd, ← hx, Workshift.worktime_eq hl' num _ hd, e2]
    simp only [Workshift.duration, e1])
  refine ⟨_, xs.sum, fv.count_eq hvd hs hd, ?_, ?_, ?_⟩
  · rw [C27_worktime_is_sum h hv hs num d (fun _ => hd), hiter]
    show (do let xs ← ws.mapM (fun w : Workshift L => w.worktime tb num d (some (s.getD v.schedule))); return xs.sum) = _
    rw [e]; rfl
  · rw [h2] at b1; exact b1
  · rw [h2] at b2; exact b2

/-- Labels of the preconfigured calendars are numbers of hours. -/
def hours (l : Int) : Option Rat := some (l : Rat)

theorem Preconfigured.facts {c : Calendar} (hc : Preconfigured c) {cs ce : Option Time} {dna oc : Bool}
    {custom : Option (List (Time × Int))} {heap : Heap Int} {tb : Timeboard Int} (h : c.new cs ce dna oc custom heap = .ok tb) :
    tb.Reachable ∧ tb.worktimeSource = "labels" ∧ ∀ l, tb.defaultSchedule.selector l = (l != 0) := by
  obtain ⟨d, heap', _, _, _, _, hn⟩ := hc.board h
  refine ⟨.new hn, ?_⟩
  obtain ⟨_, _, _, _, _, _, _, _, _, rfl⟩ := Timeboard.new_ok_iff.1 hn
  exact ⟨rfl, fun l => rfl⟩

/-- Bounds for the labels which are not 0 are bounds for the work time. -/
theorem Preconfigured.hours_between {c : Calendar} (hc : Preconfigured c) {cs ce : Option Time} {dna oc : Bool}
    {custom : Option (List (Time × Int))} {heap : Heap Int} {tb : Timeboard Int} (h : c.new cs ce dna oc custom heap = .ok tb)
    (p q : Int) (hl : ∀ t, tb.startTime ≤ t → t ≤ tb.endTime → ∃ l, labelAt (.ok tb) t = .ok l ∧ (l = 0 ∨ (p ≤ l ∧ l ≤ q)))
    {v : Interval Int} (hv : tb.HasInterval v) {s : Option (Schedule Int)} (hs : tb.OwnsOpt s)
    (hsch : s.getD v.schedule = tb.defaultSchedule) :
    ∃ (n : Int) (x : Rat), v.count tb .on s = .ok n ∧ v.worktime tb hours .on s = .ok x ∧ (p : Rat) * n ≤ x ∧ x ≤ (q : Rat) * n := by
  obtain ⟨hr, hsrc, hsel⟩ := hc.facts h
  have hvd := hr.valid
  refine C80_between hr hv hs hours (.inl rfl) p q ?_
  intro k w hk hw hduty
  have fv := hv.fine hvd
  have hk := (fv.contains_iff hvd k).1 hk
  have h0 := fv.nonneg
  have hlt := fv.lt
  obtain ⟨w', hw', e1, _, e2, _⟩ := Workshift.exists_of_range hvd (some (s.getD v.schedule)) (k := k) (by omega) (by omega)
  rw [hw] at hw'; cases hw'
  have hlab : tb.timeline.label w.loc = .ok w.label := by rw [e1]; exact e2
  rw [Workshift.hasDuty_iff hlab, hsch] at hduty
  have hne : w.label ≠ 0 := by simpa [dutyMatches, hsel] using hduty
  obtain ⟨w0, _, a, _, _, n1, _, _, _, _, _, _, _, _, g, _⟩ := (C42_durations_and_times hr).1 k (by omega) (by omega)
  have hin : tb.startTime ≤ a ∧ a ≤ tb.endTime := by
    apply Classical.byContradiction
    intro hn
    rw [(C02_get_workshift hr a none).2 hn] at g; cases g
  obtain ⟨l, hl1, hl2⟩ := hl a hin.1 hin.2
  rw [labelAt_ok g] at hl1
  obtain ⟨w1, hw1, _, _, e3, _⟩ := Workshift.exists_of_range hvd none (k := k) (by omega) (by omega)
  rw [n1] at hw1; cases hw1
  rw [e2] at e3; injection e3 with e3
  injection hl1 with hl1
  have hb : p ≤ w.label ∧ w.label ≤ q := by
    rcases hl2 with hl2 | hl2
    · omega
    · omega
  refine ⟨(w.label : Rat), ?_, Rat.intCast_le_intCast.2 hb.1, Rat.intCast_le_intCast.2 hb.2⟩
  rw [Workshift.worktime_eq hlab hours _ (.inl rfl), hsch, hduty, hsrc]
  rfl

/-- C80, calendars.  Whatever the options and the custom amendments are, time off duty counts for nothing: the work time of all
workshifts of an interval is the work time on duty. -/
theorem C80_no_hours_off {c : Calendar} (hc : Preconfigured c) {cs ce : Option Time} {dna oc : Bool}
    {custom : Option (List (Time × Int))} {heap : Heap Int} {tb : Timeboard Int} (h : c.new cs ce dna oc custom heap = .ok tb)
    {v : Interval Int} (hv : tb.HasInterval v) {s : Option (Schedule Int)} (hs : tb.OwnsOpt s)
    (hsch : s.getD v.schedule = tb.defaultSchedule) :
    v.worktime tb hours .off s = .ok 0 ∧ v.worktime tb hours .any s = v.worktime tb hours .on s := by
  obtain ⟨hr, hsrc, hsel⟩ := hc.facts h
  have hvd := hr.valid
  have hoff : v.worktime tb hours .off s = .ok 0 := by
    obtain ⟨n, x, _, hx, b1, b2⟩ := C80_between hr hv hs hours (d := .off) (.inr (.inl rfl)) 0 0 (by
      intro k w hk hw hduty
      have fv := hv.fine hvd
      have hk := (fv.contains_iff hvd k).1 hk
      have h0 := fv.nonneg
      have hlt := fv.lt
      obtain ⟨w', hw', e1, _, e2, _⟩ := Workshift.exists_of_range hvd (some (s.getD v.schedule)) (k := k) (by omega) (by omega)
      rw [hw] at hw'; cases hw'
      have hlab : tb.timeline.label w.loc = .ok w.label := by rw [e1]; exact e2
      rw [Workshift.hasDuty_iff hlab, hsch] at hduty
      have hz : w.label = 0 := by simpa [dutyMatches, hsel] using hduty
      refine ⟨0, ?_, Rat.le_refl, Rat.le_refl⟩
      rw [Workshift.worktime_eq hlab hours _ (.inr (.inl rfl)), hsch, hduty, hsrc]
      simp [hours, hz])
    rw [hx]
    have : x = 0 := by rw [Rat.zero_mul] at b1 b2; exact Rat.le_antisymm b2 b1
    rw [this]
  refine ⟨hoff, ?_⟩
  have key := C27_worktime_outcomes hr hv hs hours
  have ok : ∀ d, d = .on ∨ d = .off ∨ d = .any → ∃ q, v.worktime tb hours d s = .ok q := by
    intro d hd
    rcases key.1 d hd with ⟨_, _, k, w, _, _, _, hn⟩ | ⟨hq, _⟩
    · cases hn
    · exact hq
  obtain ⟨x, hx⟩ := ok .on (.inl rfl)
  obtain ⟨z, hz⟩ := ok .any (.inr (.inr rfl))
  have := key.2 x 0 z hx hoff hz
  rw [hx, hz, ← this, Rat.add_zero]

theorem eight_times {p : Int} {n : Int} {x : Rat} (h1 : (p : Rat) * n ≤ x) (h2 : x ≤ (p : Rat) * n) : x = (p : Rat) * n :=
  Rat.le_antisymm h2 h1

theorem ruTable_labels (short : Bool) : ∀ r ∈ ruTable (if short then 7 else 8),
    r.2.2.2 = 0 ∨ ((if short then 7 else 8) ≤ r.2.2.2 ∧ r.2.2.2 ≤ 8) := by
  cases short <;> decide +kernel

theorem ru_between {workOnDec31 shortEves : Bool} {cs ce : Option Time} {heap : Heap Int} {tb : Timeboard Int}
    (h : (ruCalendar workOnDec31 shortEves).new cs ce false false none heap = .ok tb) (t : Time) (h1 : tb.startTime ≤ t) (h2 : t ≤ tb.endTime) :
    ∃ l, labelAt (.ok tb) t = .ok l ∧ (l = 0 ∨ ((if shortEves then 7 else 8) ≤ l ∧ l ≤ 8)) := by
  obtain ⟨r1, r2⟩ := ru_table_labels h t h1 h2
  by_cases hh : RUHoliday workOnDec31 (yearOf (dayOf t)) (dayOf t)
  · exact ⟨0, r1 hh, .inl rfl⟩
  · obtain ⟨r3, r4⟩ := r2 hh
    by_cases hx : ∃ r ∈ ruTable (if shortEves then 7 else 8), dayNum r.1 r.2.1 r.2.2.1 = dayOf t
    · obtain ⟨r, hr, e⟩ := hx
      exact ⟨_, r3 r hr e, ruTable_labels _ r hr⟩
    · refine ⟨_, r4 (fun r hr e => hx ⟨r, hr, e⟩), ?_⟩
      cases shortEves <;> simp <;> omega

/-- C80, calendars.  In the American and British calendars with the built-in amendments, and in the Russian one without short eves, the work time of an interval is 8 hours for
each workshift on duty. -/
theorem C80_eight_hours {c : Calendar}
    (hc : (∃ dno longWeekends, c = usCalendar dno longWeekends) ∨ (∃ country dno longWeekends, c = ukCalendar country dno longWeekends) ∨
      ∃ workOnDec31, c = ruCalendar workOnDec31 false)
    {cs ce : Option Time} {heap : Heap Int} {tb : Timeboard Int} (h : c.new cs ce false false none heap = .ok tb)
    {v : Interval Int} (hv : tb.HasInterval v) {s : Option (Schedule Int)} (hs : tb.OwnsOpt s)
    (hsch : s.getD v.schedule = tb.defaultSchedule) :
    ∃ n : Int, v.count tb .on s = .ok n ∧ v.worktime tb hours .on s = .ok (8 * n) := by
  have key : Preconfigured c ∧ ∀ t, tb.startTime ≤ t → t ≤ tb.endTime → ∃ l, labelAt (.ok tb) t = .ok l ∧ (l = 0 ∨ (8 ≤ l ∧ l ≤ 8)) := by
    rcases hc with ⟨dno, lw, rfl⟩ | ⟨co, dno, lw, rfl⟩ | ⟨wd, rfl⟩
    · refine ⟨.us _ _, fun t h1 h2 => ?_⟩
      obtain ⟨l, e, hl, _⟩ := C63_us_days_off h t h1 h2
      exact ⟨l, e, by omega⟩
    · refine ⟨.uk _ _ _, fun t h1 h2 => ?_⟩
      obtain ⟨l, e, hl, _⟩ := C64_uk_days_off h t h1 h2
      exact ⟨l, e, by omega⟩
    · refine ⟨.ru _ _, fun t h1 h2 => ?_⟩
      exact ru_between h t h1 h2
  obtain ⟨n, x, hn, hx, b1, b2⟩ := key.1.hours_between h 8 8 key.2 hv hs hsch
  exact ⟨n, hn, by rw [hx, eight_times b1 b2]; rfl⟩

/-- C80, calendars.  In the Russian calendar with short eves a workshift on duty counts for 7 or 8 hours. -/
theorem C80_short_eves {workOnDec31 : Bool} {cs ce : Option Time} {heap : Heap Int} {tb : Timeboard Int}
    (h : (ruCalendar workOnDec31 true).new cs ce false false none heap = .ok tb)
    {v : Interval Int} (hv : tb.HasInterval v) {s : Option (Schedule Int)} (hs : tb.OwnsOpt s)
    (hsch : s.getD v.schedule = tb.defaultSchedule) :
    ∃ (n : Int) (x : Rat), v.count tb .on s = .ok n ∧ v.worktime tb hours .on s = .ok x ∧ 7 * (n : Rat) ≤ x ∧ x ≤ 8 * (n : Rat) :=
  (Preconfigured.ru _ _).hours_between h 7 8 (fun t h1 h2 => ru_between h t h1 h2) hv hs hsch


/-- The hypotheses are met: the last days of a year in the American calendar; some days of 2008 with two short eves in the Russian one. -/
example : (do
    let tb ← (usCalendar).new (some (date 2017 12 20)) (some (date 2017 12 31))
    let v ← Interval.new tb (0, 11) none
    let n ← v.count tb .on none
    let x ← v.worktime tb hours .on none
    return (n, x)) = .ok (7, 56) := by decide +kernel

example : (do
    let tb ← (ruCalendar false true).new (some (date 2008 2 18)) (some (date 2008 3 9))
    let v ← Interval.new tb (3, 19) none
    let n ← v.count tb .on none
    let x ← v.worktime tb hours .on none
    let y ← v.worktime tb hours .any none
    return (n, x, y)) = .ok (11, 86, 86) := by decide +kernel

/-- With a custom label the hours need not be 8 for each workshift on duty, and still nothing counts off duty. -/
example : (do
    let tb ← (ukCalendar).new (some (date 2017 12 20)) (some (date 2017 12 31)) false false (some [(date 2017 12 23, 3)])
    let v ← Interval.new tb (0, 11) none
    let n ← v.count tb .on none
    let x ← v.worktime tb hours .on none
    let y ← v.worktime tb hours .off none
    return (n, x, y)) = .ok (7, 51, 0) := by decide +kernel

end TB
