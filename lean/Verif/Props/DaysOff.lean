import Verif.Lemmas.DaysOffUS
import Verif.Props.WorkingDays
/-! Property C102: the numbers of working days of a year in the British and American calendars. -/
namespace TB

theorem filter_length_compl {α : Type} (p : α → Bool) (l : List α) : (l.filter p).length + (l.filter (fun x => !p x)).length = l.length := by
  induction l with
  | nil => rfl
  | cons x l ih =>
    cases h : p x
    · simp only [List.filter_cons, h, Bool.not_false, List.length_cons]
      simp; omega
    · simp only [List.filter_cons, h, Bool.not_true, List.length_cons]
      simp; omega

/-- The days of a year which are neither of a weekend nor in `off`. -/
theorem working_length {y : Int} {off : List Int} (hn : off.Nodup) (P : Int → Prop) (hm : ∀ x, x ∈ off ↔ x ∈ weekdaysOf y ∧ P x) (f : Int → Int)
    (hf : ∀ D ∈ daysOfYear y, f D = 0 ↔ 5 ≤ weekday D ∨ P D) :
    (((daysOfYear y).filter (fun D => f D != 0)).length : Int) = (weekdaysOf y).length - off.length := by
  have hnd : (daysOfYear y).Nodup := by
    have : daysOfYear y = intRange (dayNum y 1 1) (dayNum (y + 1) 1 1) := rfl
    rw [this]
    unfold intRange
    rw [List.Nodup, List.pairwise_map]
    exact List.nodup_range.imp (fun h h' => h (by omega))
  have e : (daysOfYear y).filter (fun D => f D != 0) = (weekdaysOf y).filter (fun D => f D != 0) := by
    unfold weekdaysOf
    rw [List.filter_filter]
    apply List.filter_congr
    intro D hD
    have := hf D hD
    by_cases h : weekday D < 5
    · simp [h]
    · have h0 : f D = 0 := this.2 (.inl (by omega))
      simp [h0]
  rw [e]
  have hs : weekdaysOf y = (daysOfYear y).filter (fun D => decide (weekday D < 5)) := rfl
  have hl : ((weekdaysOf y).filter (fun D => !(f D != 0))).length = off.length := by
    apply length_of_nodup _ hn
    · intro x
      rw [List.mem_filter, hm]
      apply and_congr_right
      intro hx
      rw [hs, List.mem_filter, decide_eq_true_iff] at hx
      have := hf x hx.1
      simp only [Bool.not_eq_true', bne_eq_false_iff_eq]
      rw [this]
      exact ⟨fun h => h.resolve_left (by omega), .inr⟩
    · rw [hs]
      exact (hnd.sublist List.filter_sublist).sublist List.filter_sublist
  have := filter_length_compl (fun D => f D != 0) (weekdaysOf y)
  omega

/-- The interval of a year lying within a ready-made calendar in terms of the labels of its days. -/
theorem year_labels {c : Calendar} (hc : Preconfigured c) {cs ce : Option Time} {heap : Heap Int} {tb : Timeboard Int}
    (h : c.new cs ce false false none heap = .ok tb) (t : Time)
    (h1 : tb.startTime ≤ dayNum (yearOf (dayOf t)) 1 1 * nsDay) (h2 : dayNum (yearOf (dayOf t) + 1) 1 1 * nsDay - 1 ≤ tb.endTime)
    (f : Int → Int) (hf : ∀ D ∈ daysOfYear (yearOf (dayOf t)), labelAt (.ok tb) (D * nsDay) = .ok (f D)) :
    ∃ v, tb.getInterval (some (.point t)) none (some (Denom.A none).freq) = .ok v ∧
      v.count tb = .ok (((daysOfYear (yearOf (dayOf t))).filter (fun D => f D != 0)).length : Int) ∧
      v.worktime tb hours = .ok ((((daysOfYear (yearOf (dayOf t))).map f).sum : Int) : Rat) := by
  have hp : PeriodRef (.point t) (some (Denom.A none).freq) (Period.ofTime (Denom.A none).freq t) := .inr ⟨t, _, rfl, rfl, rfl⟩
  have hm := monthOf_year (dayOf t)
  have ho : (Denom.A none).freq.base.ordOf t = yearOf (dayOf t) - 1970 := by
    show (monthOf (dayOf t) - 0) / 12 = _
    omega
  have e1 : (Period.ofTime (Denom.A none).freq t).startTime = dayNum (yearOf (dayOf t)) 1 1 * nsDay := by
    show (Denom.A none).freq.base.startOf ((Denom.A none).freq.base.ordOf t) = _
    rw [ho]; exact year_start _
  have e2 : (Period.ofTime (Denom.A none).freq t).endTime = dayNum (yearOf (dayOf t) + 1) 1 1 * nsDay - 1 := by
    show (Denom.A none).freq.base.startOf ((Denom.A none).freq.base.ordOf t + 1) - 1 = _
    rw [ho, show yearOf (dayOf t) - 1970 + 1 = (yearOf (dayOf t) + 1) - 1970 by omega, year_start]
  generalize yearOf (dayOf t) = y at *
  have hlt : dayNum y 1 1 < dayNum (y + 1) 1 1 := year_pos y
  have hse : dayNum y 1 1 * nsDay ≤ dayNum (y + 1) 1 1 * nsDay - 1 := by unfold nsDay; omega
  obtain ⟨v, hv, ls, l1, l2, _, _, _, l3, _, _, l4⟩ := C87_by_period hc h hp
    (show Freq.WholeDays (Denom.A none).freq from ⟨by decide, by decide, by decide⟩)
    (by rw [e1]; exact ⟨h1, by omega⟩) (by rw [e2]; exact ⟨by omega, h2⟩)
  have d1 : dayOf (dayNum y 1 1 * nsDay) = dayNum y 1 1 := dayOf_mul _
  have d2 : dayOf (dayNum (y + 1) 1 1 * nsDay - 1) = dayNum (y + 1) 1 1 - 1 := by unfold dayOf nsDay; omega
  rw [e1, e2, d1, d2] at l1
  have hls : ls = (daysOfYear y).map f := by
    have : dayLabels tb (dayNum y 1 1) (dayNum (y + 1) 1 1 - 1) = .ok ((daysOfYear y).map f) := by
      unfold dayLabels
      rw [show intRange (dayNum y 1 1) (dayNum (y + 1) 1 1 - 1 + 1) = daysOfYear y by
        unfold intRange daysOfYear
        rw [show dayNum (y + 1) 1 1 - 1 + 1 - dayNum y 1 1 = dayNum (y + 1) 1 1 - dayNum y 1 1 by omega]]
      exact mapM_ok_map _ _ _ hf
    rw [this] at l1
    injection l1 with l1
    exact l1.symm
  refine ⟨v, hv, ?_, ?_⟩
  · rw [l3, hls, List.filter_map, List.length_map]; rfl
  · rw [l4, hls]

/-- The same where all labels are 0 or 8. -/
theorem year_tally {c : Calendar} (hc : Preconfigured c) {cs ce : Option Time} {heap : Heap Int} {tb : Timeboard Int}
    (h : c.new cs ce false false none heap = .ok tb) (t : Time)
    (h1 : tb.startTime ≤ dayNum (yearOf (dayOf t)) 1 1 * nsDay) (h2 : dayNum (yearOf (dayOf t) + 1) 1 1 * nsDay - 1 ≤ tb.endTime)
    (f : Int → Int) (hf : ∀ D ∈ daysOfYear (yearOf (dayOf t)), labelAt (.ok tb) (D * nsDay) = .ok (f D) ∧ (f D = 0 ∨ f D = 8)) :
    ∃ v, tb.getInterval (some (.point t)) none (some (Denom.A none).freq) = .ok v ∧
      v.count tb = .ok (((daysOfYear (yearOf (dayOf t))).filter (fun D => f D != 0)).length : Int) ∧
      v.worktime tb hours = .ok ((8 * (((daysOfYear (yearOf (dayOf t))).filter (fun D => f D != 0)).length : Int) : Int) : Rat) := by
  obtain ⟨v, hv, v1, v2⟩ := year_labels hc h t h1 h2 f (fun D hD => (hf D hD).1)
  have hsum : ∀ l : List Int, (∀ D ∈ l, f D = 0 ∨ f D = 8) → (l.map f).sum = 8 * ((l.filter (fun D => f D != 0)).length : Int) := by
    intro l
    induction l with
    | nil => intro _; rfl
    | cons x l ih =>
      intro hx
      have := ih (fun D hD => hx D (by simp [hD]))
      rw [List.map_cons, List.sum_cons, this]
      rcases hx x (by simp) with hx | hx
      · simp [hx]
      · simp [hx]; omega
  exact ⟨v, hv, v1, by rw [v2, hsum _ (fun D hD => (hf D hD).2)]⟩

/-- The years of a calendar. -/
theorem year_range {c : Calendar} (hp : Preconfigured c) {a b : Int} (r1 : c.start = date a 1 1) (r2 : c.stop = date (b + 1) 1 1 - nsSec)
    {cs ce : Option Time} {heap : Heap Int} {tb : Timeboard Int} (h : c.new cs ce false false none heap = .ok tb) {y : Int}
    (h1 : tb.startTime ≤ dayNum y 1 1 * nsDay) (h2 : dayNum (y + 1) 1 1 * nsDay - 1 ≤ tb.endTime) : a ≤ y ∧ y ≤ b := by
  obtain ⟨b1, b2, _⟩ := C52_covers hp h
  have hs : ∀ t, cs = some t ∨ ce = some t → c.start ≤ t ∧ t ≤ c.stop := by
    intro t ht
    by_cases hq : t < c.start ∨ c.stop < t
    · rw [C52_out_of_range c cs ce t ht hq] at h; cases h
    · omega
  have s1 : date a 1 1 ≤ cs.getD c.start := by
    cases cs with
    | none => show _ ≤ c.start; omega
    | some t => have := (hs t (.inl rfl)).1; show _ ≤ t; omega
  have s2 : ce.getD c.stop ≤ date (b + 1) 1 1 - nsSec := by
    cases ce with
    | none => show c.stop ≤ _; rw [r2]; exact Int.le_refl _
    | some t => have := (hs t (.inr rfl)).2; show t ≤ _; rw [r2] at this; exact this
  have k1 : dayNum a 1 1 ≤ dayNum y 1 1 := by
    rw [b1] at h1
    unfold date at s1
    unfold dayOf nsDay at *
    omega
  have k2 : dayNum (y + 1) 1 1 ≤ dayNum (b + 1) 1 1 := by
    rw [b2] at h2
    unfold date at s2
    unfold dayOf nsDay nsSec at *
    omega
  rw [newYear, newYear] at k1 k2
  constructor
  · by_cases hlt : y < a
    · have := yearStart_le (show y + 1 ≤ a by omega)
      obtain ⟨l, _, q, _⟩ := dayNum_ru y
      omega
    · omega
  · by_cases hlt : b + 1 ≤ y
    · have := yearStart_le (show b + 1 ≤ y by omega)
      obtain ⟨l, _, q, _⟩ := dayNum_ru y
      omega
    · omega

/-- The years of the two calendars. -/
theorem year_supported {c : Calendar} (hc : (∃ dno lw, c = usCalendar dno lw) ∨ (∃ country dno lw, c = ukCalendar country dno lw))
    {cs ce : Option Time} {heap : Heap Int} {tb : Timeboard Int} (h : c.new cs ce false false none heap = .ok tb) {y : Int}
    (h1 : tb.startTime ≤ dayNum y 1 1 * nsDay) (h2 : dayNum (y + 1) 1 1 * nsDay - 1 ≤ tb.endTime) : y ∈ intRange 2000 2021 := by
  have hp : Preconfigured c := by
    rcases hc with ⟨dno, lw, rfl⟩ | ⟨country, dno, lw, rfl⟩
    · exact .us _ _
    · exact .uk _ _ _
  obtain ⟨r1, r2, _⟩ := C52_ranges c 2000 2020 (.inl ⟨hc, rfl, rfl⟩)
  have := year_range hp r1 r2 h h1 h2
  rw [mem_intRange]
  omega

/-- **C102**, the United Kingdom: the interval of a year lying within the calendar has as many working days as there are weekdays, less one for each
holiday observed in the country, whatever the days of the week they are on. -/
theorem C102_uk {country : String} {dno : List String} {cs ce : Option Time} {heap : Heap Int} {tb : Timeboard Int}
    (h : (ukCalendar country dno true).new cs ce false false none heap = .ok tb) (t : Time)
    (h1 : tb.startTime ≤ dayNum (yearOf (dayOf t)) 1 1 * nsDay) (h2 : dayNum (yearOf (dayOf t) + 1) 1 1 * nsDay - 1 ≤ tb.endTime) :
    ∃ v, tb.getInterval (some (.point t)) none (some (Denom.A none).freq) = .ok v ∧
      v.count tb = .ok ((weekdaysOf (yearOf (dayOf t))).length - ukDaysOff country dno (yearOf (dayOf t))) ∧
      v.worktime tb hours = .ok ((8 * ((weekdaysOf (yearOf (dayOf t))).length - ukDaysOff country dno (yearOf (dayOf t))) : Int) : Rat) := by
  have hy := year_supported (.inr ⟨_, _, _, rfl⟩) h h1 h2
  have hlab : ∀ D ∈ daysOfYear (yearOf (dayOf t)), ∃ l, labelAt (.ok tb) (D * nsDay) = .ok l ∧ (l = 0 ∨ l = 8) ∧
      (l = 0 ↔ 5 ≤ weekday D ∨ UKOfYear country dno true (yearOf (dayOf t)) D) := by
    intro D hD
    have hD := mem_daysOfYear.1 hD
    obtain ⟨l, q1, q2, q3⟩ := C64_uk_days_off h (D * nsDay) (by unfold nsDay at *; omega) (by unfold nsDay at *; omega)
    rw [dayOf_mul, year_of_day hD.1 hD.2] at q3
    exact ⟨l, q1, q2, q3⟩
  let f : Int → Int := fun D => match labelAt (.ok tb) (D * nsDay) with | .ok l => l | .error _ => 0
  have hf : ∀ D ∈ daysOfYear (yearOf (dayOf t)), labelAt (.ok tb) (D * nsDay) = .ok (f D) ∧ (f D = 0 ∨ f D = 8) ∧
      (f D = 0 ↔ 5 ≤ weekday D ∨ UKOfYear country dno true (yearOf (dayOf t)) D) := by
    intro D hD
    obtain ⟨l, q1, q2, q3⟩ := hlab D hD
    have e : f D = l := by simp only [f, q1]
    rw [e]
    exact ⟨q1, q2, q3⟩
  obtain ⟨v, hv, v1, v2⟩ := year_tally (.uk country dno true) h t h1 h2 f (fun D hD => ⟨(hf D hD).1, (hf D hD).2.1⟩)
  rw [working_length (ukOff_nodup country dno hy) _ (mem_ukOff country dno hy) f (fun D hD => (hf D hD).2.2), ukOff_length country dno hy] at v1 v2
  exact ⟨v, hv, v1, v2⟩

/-- **C102**, the United States: likewise, with the exception of New Year's days on a Saturday and the days added in 2018. -/
theorem C102_us {dno : List String} {cs ce : Option Time} {heap : Heap Int} {tb : Timeboard Int}
    (h : (usCalendar dno true).new cs ce false false none heap = .ok tb) (t : Time)
    (h1 : tb.startTime ≤ dayNum (yearOf (dayOf t)) 1 1 * nsDay) (h2 : dayNum (yearOf (dayOf t) + 1) 1 1 * nsDay - 1 ≤ tb.endTime) :
    ∃ v, tb.getInterval (some (.point t)) none (some (Denom.A none).freq) = .ok v ∧
      v.count tb = .ok ((weekdaysOf (yearOf (dayOf t))).length -
        usDaysOff dno (yearOf (dayOf tb.startTime)) (yearOf (dayOf tb.endTime)) (yearOf (dayOf t))) ∧
      v.worktime tb hours = .ok ((8 * ((weekdaysOf (yearOf (dayOf t))).length -
        usDaysOff dno (yearOf (dayOf tb.startTime)) (yearOf (dayOf tb.endTime)) (yearOf (dayOf t))) : Int) : Rat) := by
  have hy := year_supported (.inl ⟨_, _, rfl⟩) h h1 h2
  obtain ⟨b1, b2, _⟩ := C52_covers (.us dno true) h
  have d1 : dayOf tb.startTime = dayOf (cs.getD (usCalendar).start) := by rw [b1]; exact dayOf_mul _
  have d2 : dayOf tb.endTime = dayOf (ce.getD (usCalendar).stop) := by
    rw [b2]
    show dayOf ((dayOf (ce.getD (usCalendar).stop) + 1) * nsDay - 1) = _
    generalize dayOf (ce.getD (usCalendar).stop) = D
    unfold dayOf nsDay
    omega
  have hmono : ∀ a b : Int, a ≤ b → yearOf a ≤ yearOf b := by
    intro a b hab
    obtain ⟨p1, p2⟩ := yearOf_spec a
    obtain ⟨p3, p4⟩ := yearOf_spec b
    by_cases hlt : yearOf b < yearOf a
    · have := yearStart_le (show yearOf b + 1 ≤ yearOf a by omega); omega
    · omega
  have y1 : yearOf (dayOf tb.startTime) ≤ yearOf (dayOf t) := by
    have e : yearOf (dayNum (yearOf (dayOf t)) 1 1) = yearOf (dayOf t) := year_of_day (Int.le_refl _) (year_pos _)
    rw [← e]
    apply hmono
    unfold dayOf nsDay at *
    omega
  have y2 : yearOf (dayOf t) ≤ yearOf (dayOf tb.endTime) := by
    have e : yearOf (dayNum (yearOf (dayOf t) + 1) 1 1 - 1) = yearOf (dayOf t) := by
      have := year_pos (yearOf (dayOf t))
      exact year_of_day (by omega) (by omega)
    rw [← e]
    apply hmono
    unfold dayOf nsDay at *
    omega
  have hlab : ∀ D ∈ daysOfYear (yearOf (dayOf t)), ∃ l, labelAt (.ok tb) (D * nsDay) = .ok l ∧ (l = 0 ∨ l = 8) ∧
      (l = 0 ↔ 5 ≤ weekday D ∨ ∃ z, yearOf (dayOf tb.startTime) ≤ z ∧ z ≤ yearOf (dayOf tb.endTime) ∧ USOfYear dno true z D) := by
    intro D hD
    have hD := mem_daysOfYear.1 hD
    obtain ⟨l, q1, q2, q3⟩ := C63_us_days_off h (D * nsDay) (by unfold nsDay at *; omega) (by unfold nsDay at *; omega)
    rw [dayOf_mul, ← d1, ← d2] at q3
    exact ⟨l, q1, q2, q3⟩
  let f : Int → Int := fun D => match labelAt (.ok tb) (D * nsDay) with | .ok l => l | .error _ => 0
  have hf : ∀ D ∈ daysOfYear (yearOf (dayOf t)), labelAt (.ok tb) (D * nsDay) = .ok (f D) ∧ (f D = 0 ∨ f D = 8) ∧
      (f D = 0 ↔ 5 ≤ weekday D ∨ ∃ z, yearOf (dayOf tb.startTime) ≤ z ∧ z ≤ yearOf (dayOf tb.endTime) ∧ USOfYear dno true z D) := by
    intro D hD
    obtain ⟨l, q1, q2, q3⟩ := hlab D hD
    have e : f D = l := by simp only [f, q1]
    rw [e]
    exact ⟨q1, q2, q3⟩
  obtain ⟨v, hv, v1, v2⟩ := year_tally (.us dno true) h t h1 h2 f (fun D hD => ⟨(hf D hD).1, (hf D hD).2.1⟩)
  rw [working_length (usOff_nodup dno _ _ hy) _ (mem_usOff dno hy y1 y2) f (fun D hD => (hf D hD).2.2), usOff_length dno hy] at v1 v2
  exact ⟨v, hv, v1, v2⟩

/-- The hypotheses are met, and what the numbers are: Scotland without the summer holiday in 2012; the United States in 2010, the last day of which is off
on account of 2011, unless the calendar ends with 2010. -/
example : (do
    let tb ← (ukCalendar "scotland" ["summer"] true).new (some (date 2012 1 1)) (some (date 2012 12 31)) false false none (fun _ => Cycle.start [])
    let v ← tb.getInterval (some (.point (date 2012 7 1))) none (some (Denom.A none).freq)
    let n ← v.count tb
    return (n, decide (tb.startTime ≤ dayNum 2012 1 1 * nsDay ∧ dayNum 2013 1 1 * nsDay - 1 ≤ tb.endTime))) = .ok (252, true) := by decide +kernel
example : ((weekdaysOf 2012).length, ukDaysOff "scotland" ["summer"] 2012, ukDaysOff "england" [] 2012, ukDaysOff "england" [] 2013, ukDaysOff "uk" [] 2013) =
    (261, 9, 9, 8, 12) := by decide +kernel
example : (do
    let tb ← (usCalendar [] true).new (some (date 2010 1 1)) (some (date 2011 1 31)) false false none (fun _ => Cycle.start [])
    let v ← tb.getInterval (some (.point (date 2010 7 1))) none (some (Denom.A none).freq)
    let n ← v.count tb
    return (n, decide (tb.startTime ≤ dayNum 2010 1 1 * nsDay ∧ dayNum 2011 1 1 * nsDay - 1 ≤ tb.endTime))) = .ok (249, true) := by decide +kernel
example : ((weekdaysOf 2010).length, usDaysOff [] 2010 2011 2010, usDaysOff [] 2010 2010 2010, usDaysOff [] 2000 2020 2011, usDaysOff [] 2000 2020 2018,
    usDaysOff ["black_friday"] 2000 2020 2018) = (261, 12, 11, 10, 14, 13) := by decide +kernel

end TB
