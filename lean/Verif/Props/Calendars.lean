import Verif.Lemmas.CalendarYears
/-! Properties of the preconfigured calendars: C52–C56, C63–C65. -/
namespace TB

/-- `board.get_workshift(t).label`. -/
def labelAt (r : Except Err (Timeboard Int)) (t : Time) : Except Err Int := do
  let tb ← r
  let w ← tb.getWorkshift t none
  return w.label

theorem labelAt_ok {tb : Timeboard Int} {t : Time} {w : Workshift Int} (h : tb.getWorkshift t none = .ok w) : labelAt (.ok tb) t = .ok w.label := by
  simp only [labelAt, Bind.bind, Except.bind, h]; rfl

theorem Preconfigured.board {c : Calendar} (hc : Preconfigured c) {cs ce : Option Time} {dna oc : Bool}
    {custom : Option (List (Time × Int))} {heap : Heap Int} {tb : Timeboard Int} (h : c.new cs ce dna oc custom heap = .ok tb) :
    ∃ d heap', c.Supports cs ce ∧ c.builtin (yearOf (dayOf (cs.getD c.start))) (yearOf (dayOf (ce.getD c.stop))) = .ok d ∧
      d.Distinct ∧ d.Aligned ∧
      Timeboard.new (Calendar.args (cs.getD c.start) (ce.getD c.stop) (Calendar.items custom dna oc d)) heap = .ok (tb, heap') := by
  by_cases hs : c.Supports cs ce
  · obtain ⟨h1, h2⟩ := hc.good
    obtain ⟨d, hd, hd1, hd2, -⟩ := h2 (yearOf (dayOf (cs.getD c.start))) (yearOf (dayOf (ce.getD c.stop)))
    rw [Calendar.new_eq h1 hs _ _ _ _ hd] at h
    cases e : Timeboard.new (Calendar.args (cs.getD c.start) (ce.getD c.stop) (Calendar.items custom dna oc d)) heap with
    | error er => rw [e] at h; simp [Except.map] at h
    | ok r =>
      rw [e] at h
      have hr : r.1 = tb := by simpa [Except.map] using h
      rcases r with ⟨tb', heap'⟩
      simp only at hr; subst hr
      exact ⟨d, heap', hs, hd, hd1, hd2, e⟩
  · unfold Calendar.new at h
    rw [Calendar.getBounds_error hs] at h
    simp [Bind.bind, Except.bind] at h

/-- The days between the first and the last moment of the timeboard. -/
theorem Preconfigured.days {c : Calendar} (hc : Preconfigured c) {cs ce : Option Time} {dna oc : Bool}
    {custom : Option (List (Time × Int))} {heap : Heap Int} {tb : Timeboard Int} (h : c.new cs ce dna oc custom heap = .ok tb) (t : Time) :
    tb.startTime ≤ t ∧ t ≤ tb.endTime ↔ dayOf (cs.getD c.start) ≤ dayOf t ∧ dayOf t ≤ dayOf (ce.getD c.stop) := by
  obtain ⟨d, heap', _, _, _, _, e⟩ := hc.board h
  obtain ⟨_, b2, b3, _⟩ := Calendar.board e
  rw [b2, b3]
  unfold dayStart dayOf nsDay
  omega

/-! ## C52 -/

/-- C52. Outside the supported range: `OutOfBoundsError`, whatever the other arguments. -/
theorem C52_out_of_range (c : Calendar) (customStart customEnd : Option Time) (t : Time) (h : customStart = some t ∨ customEnd = some t)
    (ht : t < c.start ∨ c.stop < t) (doNotAmend onlyCustom : Bool) (custom : Option (List (Time × Int))) (heap : Heap Int) :
    c.new customStart customEnd doNotAmend onlyCustom custom heap = .error .outOfBounds := by
  have hs : ¬ c.Supports customStart customEnd := fun hs => by have := hs t h; omega
  unfold Calendar.new
  rw [Calendar.getBounds_error hs]; rfl

/-- C52. The timeboard covers exactly the days of the chosen range, by default those of the supported range; every day is a
workshift. -/
theorem C52_covers {c : Calendar} (hc : Preconfigured c) {customStart customEnd : Option Time} {doNotAmend onlyCustom : Bool}
    {custom : Option (List (Time × Int))} {heap : Heap Int} {tb : Timeboard Int}
    (h : c.new customStart customEnd doNotAmend onlyCustom custom heap = .ok tb) :
    tb.startTime = dayOf (customStart.getD c.start) * nsDay ∧ tb.endTime = (dayOf (customEnd.getD c.stop) + 1) * nsDay - 1 ∧
    ∀ t, tb.startTime ≤ t → t ≤ tb.endTime → ∃ w, tb.getWorkshift t none = .ok w ∧
      w.startTime tb = .ok (dayOf t * nsDay) ∧ w.endTime tb = .ok ((dayOf t + 1) * nsDay - 1) ∧ w.duration tb = .ok 1 := by
  obtain ⟨d, heap', _, _, _, _, e⟩ := hc.board h
  obtain ⟨b1, b2, b3, b4⟩ := Calendar.board e
  have e1 : ∀ x : Time, dayStart x + nsDay - 1 = (dayOf x + 1) * nsDay - 1 := by intro x; unfold dayStart nsDay; omega
  refine ⟨b2, by rw [b3, e1], ?_⟩
  intro t t1 t2
  obtain ⟨t1', t2'⟩ := (hc.days h t).1 ⟨t1, t2⟩
  obtain ⟨w, w1, w2, w3, w4, _⟩ := b4 t none t1' t2'
  exact ⟨w, w1, w2, by rw [w3, e1], w4⟩

/-- C52. The supported ranges are the years 2000-2020 for the American and British calendars and 2005-2021 for the Russian one, up to
the beginning of the last second of the last day; a calendar without a custom range covers all days of these years. -/
theorem C52_ranges (c : Calendar) (first last : Int)
    (hc : ((∃ dno lw, c = usCalendar dno lw) ∨ (∃ country dno lw, c = ukCalendar country dno lw)) ∧ first = 2000 ∧ last = 2020 ∨
      (∃ dec31 eves, c = ruCalendar dec31 eves) ∧ first = 2005 ∧ last = 2021) :
    c.start = date first 1 1 ∧ c.stop = date (last + 1) 1 1 - nsSec ∧
    ∀ (doNotAmend onlyCustom : Bool) (custom : Option (List (Time × Int))) (heap : Heap Int) (tb : Timeboard Int),
      c.new none none doNotAmend onlyCustom custom heap = .ok tb → tb.startTime = date first 1 1 ∧ tb.endTime = date (last + 1) 1 1 - 1 := by
  have hp : Preconfigured c := by
    rcases hc with ⟨⟨dno, lw, rfl⟩ | ⟨country, dno, lw, rfl⟩, _, _⟩ | ⟨⟨dec31, eves, rfl⟩, _, _⟩
    · exact .us _ _
    · exact .uk _ _ _
    · exact .ru _ _
  have h12 : c.start = date first 1 1 ∧ c.stop = date (last + 1) 1 1 - nsSec := by
    rcases hc with ⟨⟨dno, lw, rfl⟩ | ⟨country, dno, lw, rfl⟩, rfl, rfl⟩ | ⟨⟨dec31, eves, rfl⟩, rfl, rfl⟩ <;>
      exact ⟨rfl, by simp only [usCalendar, ukCalendar, ruCalendar]; decide +kernel⟩
  refine ⟨h12.1, h12.2, ?_⟩
  intro dna oc custom heap tb h
  obtain ⟨e1, e2, _⟩ := C52_covers hp h
  rw [e1, e2]
  simp only [Option.getD_none, h12.1, h12.2, date, dayOf]
  unfold nsSec nsDay
  omega

/-- C52. Every supported range is accepted, unless it ends before it begins. -/
theorem C52_builds {c : Calendar} (hc : Preconfigured c) (customStart customEnd : Option Time)
    (hs : ∀ t, customStart = some t ∨ customEnd = some t → c.start ≤ t ∧ t ≤ c.stop) (heap : Heap Int) :
    (dayOf (customEnd.getD c.stop) < dayOf (customStart.getD c.start) →
      ∀ doNotAmend onlyCustom custom, c.new customStart customEnd doNotAmend onlyCustom custom heap = .error .voidInterval) ∧
    (dayOf (customStart.getD c.start) ≤ dayOf (customEnd.getD c.stop) →
      (∃ tb, c.new customStart customEnd false false none heap = .ok tb) ∧ (∀ onlyCustom custom, ∃ tb, c.new customStart customEnd true onlyCustom custom heap = .ok tb)) := by
  obtain ⟨h1, h2⟩ := hc.good
  obtain ⟨d, hd, -⟩ := h2 (yearOf (dayOf (customStart.getD c.start))) (yearOf (dayOf (customEnd.getD c.stop)))
  constructor
  · intro hlt dna oc custom
    rw [Calendar.new_eq h1 hs _ _ _ _ hd, (Calendar.board_exists _ _ _ heap).1 hlt]; rfl
  · intro hle
    constructor
    · obtain ⟨d, _, _, h⟩ := hc.good.new hs none heap
      obtain ⟨tb, ht, _⟩ := (h hle).2 (by simp)
      exact ⟨tb, ht⟩
    · intro oc custom
      rw [Calendar.new_eq h1 hs _ _ _ _ hd]
      obtain ⟨tb, ht⟩ := (Calendar.board_exists _ _ (Calendar.items custom true oc d) heap).2.2 hle (by
        have : Calendar.items custom true oc d = [] := rfl
        rw [this]
        rintro ⟨i, j, p, q, _, hp, _⟩
        simp at hp)
      exact ⟨tb, by rw [ht]; rfl⟩

/-- One second after the end of the British calendar; the last moment is accepted, and so is the whole range. -/
example : (ukCalendar).new none (some (date 2021 1 1)) false false none Ex.heap0 = .error .outOfBounds :=
  C52_out_of_range _ _ _ _ (.inr rfl) (by decide) _ _ _ _
example : ∃ tb, (ukCalendar "scotland" [] true).new none none false false none Ex.heap0 = .ok tb :=
  ((C52_builds (.uk _ _ _) none none (by simp) Ex.heap0).2 (by decide)).1
example : (ruCalendar true true).new (some (date 2010 1 2)) (some (date 2010 1 1)) false false none Ex.heap0 = .error .voidInterval :=
  (C52_builds (.ru _ _) _ _ (by rintro t (h | h) <;> cases h <;> decide) _).1 (by decide) _ _ _

/-! ## C53 -/

/-- C53. With `do_not_amend` every day has the label of its weekday. -/
theorem C53_do_not_amend {c : Calendar} (hc : Preconfigured c) {customStart customEnd : Option Time} {onlyCustom : Bool}
    {custom : Option (List (Time × Int))} {heap : Heap Int} {tb : Timeboard Int}
    (h : c.new customStart customEnd true onlyCustom custom heap = .ok tb) (t : Time) (h1 : tb.startTime ≤ t) (h2 : t ≤ tb.endTime) :
    labelAt (.ok tb) t = .ok (if weekday (dayOf t) < 5 then 8 else 0) := by
  obtain ⟨d, heap', _, _, _, _, e⟩ := hc.board h
  obtain ⟨t1, t2⟩ := (hc.days h t).1 ⟨h1, h2⟩
  obtain ⟨w, w1, _, _, _, _, _, w2⟩ := (Calendar.board e).2.2.2 t none t1 t2
  rw [labelAt_ok w1, w2 (by simp [Calendar.items])]; rfl

/-- C53. With `only_custom_amendments` the label is the custom amendment of the day, otherwise that of its weekday. -/
theorem C53_only_custom {c : Calendar} (hc : Preconfigured c) {customStart customEnd : Option Time}
    {custom : Option (List (Time × Int))} {heap : Heap Int} {tb : Timeboard Int}
    (h : c.new customStart customEnd false true custom heap = .ok tb) (t : Time) (h1 : tb.startTime ≤ t) (h2 : t ≤ tb.endTime) :
    (∀ x ∈ custom.getD [], dayOf x.1 = dayOf t → labelAt (.ok tb) t = .ok x.2) ∧
    ((∀ x ∈ custom.getD [], dayOf x.1 ≠ dayOf t) → labelAt (.ok tb) t = .ok (if weekday (dayOf t) < 5 then 8 else 0)) := by
  obtain ⟨d, heap', _, _, _, _, e⟩ := hc.board h
  obtain ⟨t1, t2⟩ := (hc.days h t).1 ⟨h1, h2⟩
  obtain ⟨w, w1, _, _, _, _, w2, w3⟩ := (Calendar.board e).2.2.2 t none t1 t2
  rw [labelAt_ok w1]
  exact ⟨fun x hx hd => by rw [w2 x hx hd], fun hn => by rw [w3 hn]; rfl⟩

/-- C53. Otherwise the label is that given to the day by `amendments` called with the same arguments (which does not fail), and
that of its weekday if there is none. -/
theorem C53_amended {c : Calendar} (hc : Preconfigured c) {customStart customEnd : Option Time}
    {custom : Option (List (Time × Int))} {heap : Heap Int} {tb : Timeboard Int}
    (h : c.new customStart customEnd false false custom heap = .ok tb) :
    ∃ am, c.amendments customStart customEnd custom = .ok am ∧ ∀ t, tb.startTime ≤ t → t ≤ tb.endTime →
      (∀ x ∈ am, dayOf x.1.time = dayOf t → labelAt (.ok tb) t = .ok x.2) ∧
      ((∀ x ∈ am, dayOf x.1.time ≠ dayOf t) → labelAt (.ok tb) t = .ok (if weekday (dayOf t) < 5 then 8 else 0)) := by
  obtain ⟨d, heap', hs, hd, _, _, e⟩ := hc.board h
  refine ⟨_, Calendar.amendments_eq hs custom hd, ?_⟩
  intro t h1 h2
  obtain ⟨t1, t2⟩ := (hc.days h t).1 ⟨h1, h2⟩
  obtain ⟨w, w1, _, _, _, _, w2, w3⟩ := (Calendar.board e).2.2.2 t none t1 t2
  rw [labelAt_ok w1]
  constructor
  · intro x hx hxt
    rw [w2 (x.1.time, x.2) (List.mem_map.2 ⟨x, hx, rfl⟩) hxt]
  · intro hn
    rw [w3]
    · rfl
    · intro x hx
      obtain ⟨y, hy, rfl⟩ := List.mem_map.1 hx
      exact hn y hy

/-- Christmas 2017 in the American calendar, a Monday: a day off, unless there are no amendments. -/
example : labelAt ((usCalendar).new (some (date 2017 12 20)) (some (date 2017 12 31))) (date 2017 12 25 + 9 * nsHour) = .ok 0 := by decide +kernel
example : labelAt ((usCalendar).new (some (date 2017 12 20)) (some (date 2017 12 31)) true) (date 2017 12 25 + 9 * nsHour) = .ok 8 := by
  decide +kernel
example : labelAt ((usCalendar).new (some (date 2017 12 20)) (some (date 2017 12 31)) false true (some [(date 2017 12 26, 4)])) (date 2017 12 26) = .ok 4 := by
  decide +kernel

/-! ## C54 -/

/-- The calendars whose tables are kept with timestamps as the keys. -/
inductive LongWeekends : Calendar → Prop where
  | us (dno : List String) : LongWeekends (usCalendar dno true)
  | uk (country : String) (dno : List String) : LongWeekends (ukCalendar country dno true)
  | ru (workOnDec31 shortEves : Bool) : LongWeekends (ruCalendar workOnDec31 shortEves)

theorem LongWeekends.preconfigured {c : Calendar} (h : LongWeekends c) : Preconfigured c := by
  cases h with
  | us dno => exact .us _ _
  | uk country dno => exact .uk _ _ _
  | ru w s => exact .ru _ _

theorem LongWeekends.str {c : Calendar} (h : LongWeekends c) {a b : Int} {d : Dict DKey Int} (hd : c.builtin a b = .ok d) (t : Time) :
    d.get? (.str t) = none := by
  cases h with
  | us dno =>
    obtain ⟨d', e, _, h⟩ := us_daysOff dno true a b
    have hd' : fedHolidays a b dno true (0 : Int) = .ok d := hd
    rw [e] at hd'; cases hd'
    exact Classical.not_not.1 (fun hn => by simpa using ((h t).1 hn).1)
  | uk country dno =>
    obtain ⟨d', e, _, h⟩ := uk_daysOff country dno true a b
    have hd' : bankHolidays a b country dno true (0 : Int) = .ok d := hd
    rw [e] at hd'; cases hd'
    exact Classical.not_not.1 (fun hn => by simpa using ((h t).1 hn).1)
  | ru w s =>
    have hd' : Except.ok (tsKeys ((ruChanges (if s then 7 else 8)).update (ruHolidays a b w))) = Except.ok d := hd
    cases hd'
    exact tsKeys_get?_str _ _

theorem lastOf_index {custom : List (Time × Int)} {i : Nat} {x : Time × Int} {D : Int} (hi : custom[i]? = some x) (hx : dayOf x.1 = D)
    (hj : ∀ j y, i < j → custom[j]? = some y → dayOf y.1 ≠ D) : lastOf custom D = some x.2 := by
  obtain ⟨hlt, hget⟩ := List.getElem?_eq_some_iff.1 hi
  have hsplit : custom = custom.take i ++ x :: custom.drop (i + 1) := by
    rw [← hget, List.getElem_cons_drop, List.take_append_drop]
  have hnone : (custom.drop (i + 1)).reverse.find? (fun x => decide (dayOf x.1 = D)) = none := by
    rw [List.find?_eq_none]
    intro y hy
    rw [List.mem_reverse, List.mem_iff_getElem?] at hy
    obtain ⟨k, hk⟩ := hy
    rw [List.getElem?_drop] at hk
    simpa using hj (i + 1 + k) y (by omega) hk
  unfold lastOf
  rw [hsplit, List.reverse_append, List.reverse_cons, List.append_assoc, List.find?_append, hnone]
  simp [hx]

theorem lastOf_none {custom : List (Time × Int)} {D : Int} (h : ∀ x ∈ custom, dayOf x.1 ≠ D) : lastOf custom D = none := by
  unfold lastOf
  rw [Option.map_eq_none_iff, List.find?_eq_none]
  intro x hx
  simpa using h x (List.mem_reverse.1 hx)

/-- The label of a day is that of the last item for the day in the dictionary of custom amendments, and that of the calendar
without custom amendments (`tb0`) if there is no item for the day. -/
def Overrides (custom : List (Time × Int)) (tb tb0 : Timeboard Int) (t : Time) : Prop :=
  (∀ (i : Nat) x, custom[i]? = some x → dayOf x.1 = dayOf t → (∀ (j : Nat) y, i < j → custom[j]? = some y → dayOf y.1 ≠ dayOf t) →
    labelAt (.ok tb) t = .ok x.2) ∧
  ((∀ x ∈ custom, dayOf x.1 ≠ dayOf t) → ∃ l, labelAt (.ok tb) t = .ok l ∧ labelAt (.ok tb0) t = .ok l)

theorem custom_override {c : Calendar} (hc : Preconfigured c) {cs ce : Option Time} (hs : c.Supports cs ce)
    (hle : dayOf (cs.getD c.start) ≤ dayOf (ce.getD c.stop)) (custom : List (Time × Int)) (heap : Heap Int)
    (hn : ∀ d, c.builtin (yearOf (dayOf (cs.getD c.start))) (yearOf (dayOf (ce.getD c.stop))) = .ok d →
      ∀ x ∈ custom, dayOf (cs.getD c.start) ≤ dayOf x.1 → dayOf x.1 ≤ dayOf (ce.getD c.stop) → d.get? (.str (dayOf x.1 * nsDay)) = none) :
    ∃ tb tb0, c.new cs ce false false (some custom) heap = .ok tb ∧ c.new cs ce false false none heap = .ok tb0 ∧
      ∀ t, dayOf (cs.getD c.start) ≤ dayOf t → dayOf t ≤ dayOf (ce.getD c.stop) →
        Overrides custom tb tb0 t := by
  obtain ⟨d, hd, _, h⟩ := hc.good.new hs (some custom) heap
  obtain ⟨d0, hd0, _, h0⟩ := hc.good.new hs none heap
  rw [hd] at hd0; cases hd0
  obtain ⟨tb, ht, hw⟩ := (h hle).2 (hn d hd)
  obtain ⟨tb0, ht0, hw0⟩ := (h0 hle).2 (by simp)
  refine ⟨tb, tb0, ht, ht0, ?_⟩
  intro t t1 t2
  obtain ⟨w, w1, w2⟩ := hw t none t1 t2
  obtain ⟨w', w1', w2'⟩ := hw0 t none t1 t2
  have w3 : w.label = (lastOf custom (dayOf t)).getD w'.label := by
    rw [w2, w2']
    show ((lastOf custom (dayOf t)).or _).getD _ = _
    cases lastOf custom (dayOf t) <;> rfl
  unfold Overrides
  rw [labelAt_ok w1, labelAt_ok w1', w3]
  constructor
  · intro i x h1 h2 h3
    rw [lastOf_index h1 h2 h3]; rfl
  · intro hn
    rw [lastOf_none hn]
    exact ⟨_, rfl, rfl⟩

/-- C54 in part: American and British calendars with long weekends, Russian calendars. The timeboard is made with any custom
amendments, and they override. Missing: American and British calendars without long weekends, see `C54_short_weekends_fail` and
`C54_short_weekends_partial`. -/
theorem C54_custom_override_partial {c : Calendar} (hc : LongWeekends c) {customStart customEnd : Option Time}
    (hs : ∀ t, customStart = some t ∨ customEnd = some t → c.start ≤ t ∧ t ≤ c.stop)
    (hle : dayOf (customStart.getD c.start) ≤ dayOf (customEnd.getD c.stop)) (custom : List (Time × Int)) (heap : Heap Int) :
    ∃ tb tb0, c.new customStart customEnd false false (some custom) heap = .ok tb ∧ c.new customStart customEnd false false none heap = .ok tb0 ∧
      ∀ t, dayOf (customStart.getD c.start) ≤ dayOf t → dayOf t ≤ dayOf (customEnd.getD c.stop) → Overrides custom tb tb0 t :=
  custom_override hc.preconfigured hs hle custom heap (fun _ hd _ _ _ _ => hc.str hd _)

/-- The holidays on fixed dates of the calendars without long weekends. -/
inductive ShortWeekends : Calendar → (Int → Int → Prop) → Prop where
  | us (dno : List String) : ShortWeekends (usCalendar dno false) (USFixed dno)
  | uk (country : String) (dno : List String) : ShortWeekends (ukCalendar country dno false) (UKFixed country dno)

theorem ShortWeekends.preconfigured {c : Calendar} {Q : Int → Int → Prop} (h : ShortWeekends c Q) : Preconfigured c := by
  cases h with
  | us dno => exact .us _ _
  | uk country dno => exact .uk _ _ _

theorem ShortWeekends.inYear {c : Calendar} {Q : Int → Int → Prop} (h : ShortWeekends c Q) {y x : Int} (hq : Q y x) : InYear y x := by
  cases h with
  | us dno => exact USFixed.inYear hq
  | uk country dno => exact UKOfYear.inYear (country := country) (dno := dno) (lw := true) (.inl hq)

theorem ShortWeekends.str {c : Calendar} {Q : Int → Int → Prop} (h : ShortWeekends c Q) {a b : Int} {d : Dict DKey Int} (hd : c.builtin a b = .ok d)
    (D : Int) : d.get? (.str (D * nsDay)) ≠ none ↔ ∃ y, a ≤ y ∧ y ≤ b ∧ Q y D := by
  have key : ∀ R : Int → Int → Prop, (false = false ∧ ∃ x y, D * nsDay = x * nsDay ∧ a ≤ y ∧ y ≤ b ∧ R y x) ↔ ∃ y, a ≤ y ∧ y ≤ b ∧ R y D := by
    intro R
    constructor
    · rintro ⟨_, x, y, hx, h⟩
      rw [nsDay_mul_inj hx]; exact ⟨y, h⟩
    · rintro ⟨y, h⟩
      exact ⟨rfl, D, y, rfl, h⟩
  cases h with
  | us dno =>
    obtain ⟨d', e, _, h⟩ := us_daysOff dno false a b
    have hd' : fedHolidays a b dno false (0 : Int) = .ok d := hd
    rw [e] at hd'; cases hd'
    rw [h]; exact key (USFixed dno)
  | uk country dno =>
    obtain ⟨d', e, _, h⟩ := uk_daysOff country dno false a b
    have hd' : bankHolidays a b country dno false (0 : Int) = .ok d := hd
    rw [e] at hd'; cases hd'
    rw [h]; exact key (UKFixed country dno)

theorem yearOf_mono {x y : Int} (h : x ≤ y) : yearOf x ≤ yearOf y := by
  obtain ⟨h1, h2⟩ := yearOf_spec x
  obtain ⟨h3, h4⟩ := yearOf_spec y
  refine Classical.byContradiction fun hn => ?_
  have := yearStart_le (show yearOf y + 1 ≤ yearOf x by omega)
  omega

/-- C54 does not hold without long weekends: a custom amendment for a holiday on a fixed date, of any year, makes the
construction fail with `KeyError`. -/
theorem C54_short_weekends_fail {c : Calendar} {Fixed : Int → Int → Prop} (hc : ShortWeekends c Fixed) {customStart customEnd : Option Time}
    (hs : ∀ t, customStart = some t ∨ customEnd = some t → c.start ≤ t ∧ t ≤ c.stop) (custom : List (Time × Int)) (heap : Heap Int)
    (x : Time × Int) (hx : x ∈ custom) (h1 : dayOf (customStart.getD c.start) ≤ dayOf x.1) (h2 : dayOf x.1 ≤ dayOf (customEnd.getD c.stop))
    (y : Int) (hy : Fixed y (dayOf x.1)) :
    c.new customStart customEnd false false (some custom) heap = .error .keyError := by
  obtain ⟨d, hd, _, h⟩ := hc.preconfigured.good.new hs (some custom) heap
  have hy' := inYear_iff.1 (hc.inYear hy)
  exact (h (by omega)).1 ⟨x, hx, h1, h2, (hc.str hd _).2 ⟨y, by rw [← hy']; exact yearOf_mono h1, by rw [← hy']; exact yearOf_mono h2, hy⟩⟩

/-- C54 in part, without long weekends: custom amendments for other days override. -/
theorem C54_short_weekends_partial {c : Calendar} {Fixed : Int → Int → Prop} (hc : ShortWeekends c Fixed) {customStart customEnd : Option Time}
    (hs : ∀ t, customStart = some t ∨ customEnd = some t → c.start ≤ t ∧ t ≤ c.stop)
    (hle : dayOf (customStart.getD c.start) ≤ dayOf (customEnd.getD c.stop)) (custom : List (Time × Int)) (heap : Heap Int)
    (hn : ∀ x ∈ custom, ∀ y, ¬ Fixed y (dayOf x.1)) :
    ∃ tb tb0, c.new customStart customEnd false false (some custom) heap = .ok tb ∧ c.new customStart customEnd false false none heap = .ok tb0 ∧
      ∀ t, dayOf (customStart.getD c.start) ≤ dayOf t → dayOf t ≤ dayOf (customEnd.getD c.stop) → Overrides custom tb tb0 t :=
  custom_override hc.preconfigured hs hle custom heap (fun _ hd x hx _ _ => Classical.not_not.1 fun h' => by
    obtain ⟨y, _, _, hy⟩ := (hc.str hd _).1 h'
    exact hn x hx y hy)

/-- Working on Christmas 2017: with long weekends, and without them. -/
example : labelAt ((usCalendar).new (some (date 2017 12 20)) (some (date 2017 12 31)) false false (some [(date 2017 12 25 + nsHour, 5), (date 2017 12 25, 3)]))
    (date 2017 12 25 + 9 * nsHour) = .ok 3 := by decide +kernel
theorem C54_fails_concrete : labelAt ((usCalendar [] false).new (some (date 2017 12 20)) (some (date 2017 12 31)) false false (some [(date 2017 12 25, 3)]))
    (date 2017 12 25) = .error .keyError := by decide +kernel
example (custom : List (Time × Int)) (heap : Heap Int) (h : (date 2017 12 25, 3) ∈ custom) :
    (ukCalendar "england" [] false).new none none false false (some custom) heap = .error .keyError :=
  C54_short_weekends_fail (.uk _ _) (by simp) custom heap _ h (by decide) (by decide) 2017
    (.inr (.inr (.inr (.inr (.inr (.inl ⟨by simp, by decide⟩))))))

/-! ## C63, C64, C65 -/

theorem Preconfigured.label {c : Calendar} (hc : Preconfigured c) {cs ce : Option Time} {custom : Option (List (Time × Int))} {heap : Heap Int}
    {tb : Timeboard Int} (h : c.new cs ce false false custom heap = .ok tb) :
    ∃ d, c.builtin (yearOf (dayOf (cs.getD c.start))) (yearOf (dayOf (ce.getD c.stop))) = .ok d ∧
      ∀ t, tb.startTime ≤ t → t ≤ tb.endTime →
        yearOf (dayOf (cs.getD c.start)) ≤ yearOf (dayOf t) ∧ yearOf (dayOf t) ≤ yearOf (dayOf (ce.getD c.stop)) ∧
        labelAt (.ok tb) t = .ok (((lastOf (custom.getD []) (dayOf t)).or (d.dayLabel (dayOf t))).getD (weekLabel (dayOf t))) := by
  obtain ⟨_, _, hs, _, _, _, he⟩ := hc.board h
  have hle := (Calendar.board he).1
  obtain ⟨d, hd, _, hn⟩ := hc.good.new hs custom heap
  obtain ⟨hn1, hn2⟩ := hn hle
  refine ⟨d, hd, ?_⟩
  obtain ⟨tb', ht, hw⟩ := hn2 (fun x hx h1 h2 => Classical.not_not.1 fun h3 => by
    rw [hn1 ⟨x, hx, h1, h2, h3⟩] at h; simp at h)
  rw [h] at ht; cases ht
  intro t t1 t2
  obtain ⟨t1', t2'⟩ := (hc.days h t).1 ⟨t1, t2⟩
  obtain ⟨w, w1, w2⟩ := hw t none t1' t2'
  exact ⟨yearOf_mono t1', yearOf_mono t2', by rw [labelAt_ok w1, w2]⟩

theorem daysOff_label {d : Dict DKey Int} {P : Int → Prop} (h : d.DaysOff P) (D : Int) :
    ∃ l, (d.dayLabel D).getD (weekLabel D) = l ∧ (l = 0 ∨ l = 8) ∧ (l = 0 ↔ 5 ≤ weekday D ∨ P D) := by
  refine ⟨_, rfl, ?_⟩
  by_cases hp : P D
  · rw [h.2.2.2.1 D hp]; simp [hp]
  · rw [h.2.2.2.2 D hp]
    simp only [Option.getD_none, hp, or_false]
    unfold weekLabel
    split <;> simp <;> omega

/-- C63. The days off of the American calendar are the weekends and the holidays of the years of the chosen range, with the
nearest weekday of a holiday on the weekend if long weekends are asked for; all other days have the label 8. -/
theorem C63_us_days_off {dno : List String} {longWeekends : Bool} {customStart customEnd : Option Time} {heap : Heap Int} {tb : Timeboard Int}
    (h : (usCalendar dno longWeekends).new customStart customEnd false false none heap = .ok tb) (t : Time) (h1 : tb.startTime ≤ t) (h2 : t ≤ tb.endTime) :
    ∃ l, labelAt (.ok tb) t = .ok l ∧ (l = 0 ∨ l = 8) ∧
      (l = 0 ↔ 5 ≤ weekday (dayOf t) ∨ ∃ y, yearOf (dayOf (customStart.getD (usCalendar).start)) ≤ y ∧
        y ≤ yearOf (dayOf (customEnd.getD (usCalendar).stop)) ∧ USOfYear dno longWeekends y (dayOf t)) := by
  obtain ⟨d, hd, hl⟩ := (Preconfigured.us dno longWeekends).label h
  obtain ⟨d', e, hd', _⟩ := us_daysOff dno longWeekends (yearOf (dayOf (customStart.getD (usCalendar).start))) (yearOf (dayOf (customEnd.getD (usCalendar).stop)))
  have e' : fedHolidays (yearOf (dayOf (customStart.getD (usCalendar).start))) (yearOf (dayOf (customEnd.getD (usCalendar).stop))) dno longWeekends (0 : Int) =
    .ok d := hd
  rw [e] at e'; cases e'
  obtain ⟨l, l1, l2⟩ := daysOff_label hd' (dayOf t)
  exact ⟨l, (hl t h1 h2).2.2.trans (congrArg _ l1), l2⟩

/-- C64. The days off of the British calendar. -/
theorem C64_uk_days_off {country : String} {dno : List String} {longWeekends : Bool} {customStart customEnd : Option Time} {heap : Heap Int}
    {tb : Timeboard Int} (h : (ukCalendar country dno longWeekends).new customStart customEnd false false none heap = .ok tb) (t : Time)
    (h1 : tb.startTime ≤ t) (h2 : t ≤ tb.endTime) :
    ∃ l, labelAt (.ok tb) t = .ok l ∧ (l = 0 ∨ l = 8) ∧
      (l = 0 ↔ 5 ≤ weekday (dayOf t) ∨ UKOfYear country dno longWeekends (yearOf (dayOf t)) (dayOf t)) := by
  obtain ⟨d, hd, hl⟩ := (Preconfigured.uk country dno longWeekends).label h
  obtain ⟨d', e, hd', _⟩ := uk_daysOff country dno longWeekends (yearOf (dayOf (customStart.getD (ukCalendar).start)))
    (yearOf (dayOf (customEnd.getD (ukCalendar).stop)))
  have e' : bankHolidays (yearOf (dayOf (customStart.getD (ukCalendar).start))) (yearOf (dayOf (customEnd.getD (ukCalendar).stop))) country dno longWeekends
    (0 : Int) = .ok d := hd
  rw [e] at e'; cases e'
  obtain ⟨l, l1, l2, l3⟩ := daysOff_label hd' (dayOf t)
  obtain ⟨y1, y2, hl⟩ := hl t h1 h2
  refine ⟨l, hl.trans (congrArg _ l1), l2, ?_⟩
  rw [l3]
  constructor
  · rintro (h | ⟨y, _, _, hy⟩)
    · exact .inl h
    · have := inYear_iff.1 hy.inYear
      subst this
      exact .inr hy
  · rintro (h | h)
    · exact .inl h
    · exact .inr ⟨_, y1, y2, h⟩

/-- The label of a day of the Russian calendar in terms of the table (for C65, see `Props/Decrees.lean`): 0 if it is a holiday, otherwise that of the table of changes if the day is
there (with 7 or 8 for the eves of holidays), otherwise that of its weekday. -/
theorem ru_table_labels {workOnDec31 shortEves : Bool} {customStart customEnd : Option Time} {heap : Heap Int}
    {tb : Timeboard Int} (h : (ruCalendar workOnDec31 shortEves).new customStart customEnd false false none heap = .ok tb) (t : Time)
    (h1 : tb.startTime ≤ t) (h2 : t ≤ tb.endTime) :
    (RUHoliday workOnDec31 (yearOf (dayOf t)) (dayOf t) → labelAt (.ok tb) t = .ok 0) ∧
    (¬ RUHoliday workOnDec31 (yearOf (dayOf t)) (dayOf t) →
      (∀ r ∈ ruTable (if shortEves then 7 else 8), dayNum r.1 r.2.1 r.2.2.1 = dayOf t → labelAt (.ok tb) t = .ok r.2.2.2) ∧
      ((∀ r ∈ ruTable (if shortEves then 7 else 8), dayNum r.1 r.2.1 r.2.2.1 ≠ dayOf t) →
        labelAt (.ok tb) t = .ok (if weekday (dayOf t) < 5 then 8 else 0))) := by
  obtain ⟨d, hd, hl⟩ := (Preconfigured.ru workOnDec31 shortEves).label h
  have e' : Except.ok (tsKeys ((ruChanges (if shortEves then 7 else 8)).update (ruHolidays (yearOf (dayOf (customStart.getD (ruCalendar).start)))
    (yearOf (dayOf (customEnd.getD (ruCalendar).stop))) workOnDec31))) = Except.ok d := hd
  cases e'
  obtain ⟨_, _, _, r1, r2⟩ := ru_labels (if shortEves then 7 else 8) (yearOf (dayOf (customStart.getD (ruCalendar).start)))
    (yearOf (dayOf (customEnd.getD (ruCalendar).stop))) workOnDec31 rfl
  obtain ⟨y1, y2, hl⟩ := hl t h1 h2
  rw [hl]
  constructor
  · intro hr
    show Except.ok (Option.getD (Dict.dayLabel _ _) _) = _
    rw [r1 _ ⟨_, y1, y2, hr⟩]; rfl
  · intro hr
    have e2 : _ = ruChange (if shortEves then 7 else 8) (dayOf t) := r2 (dayOf t) (by
      rintro ⟨y, _, _, hy⟩
      have := inYear_iff.1 hy.inYear
      subst this
      exact hr hy)
    constructor
    · intro r hm hD
      show Except.ok (Option.getD (Dict.dayLabel _ _) _) = _
      rw [e2]
      have hd := ruTable_distinct (if shortEves then 7 else 8)
      unfold ruChange
      generalize ruTable (if shortEves then 7 else 8) = L at hm hd
      have : L.find? (fun r => decide (dayNum r.1 r.2.1 r.2.2.1 = dayOf t)) = some r := by
        induction L with
        | nil => simp at hm
        | cons a as ih =>
          rw [List.find?_cons]
          rw [List.map_cons, List.nodup_cons] at hd
          rcases List.mem_cons.1 hm with rfl | hm'
          · simp [hD]
          · have hne : dayNum a.1 a.2.1 a.2.2.1 ≠ dayOf t := by
              intro hc
              exact hd.1 (List.mem_map.2 ⟨r, hm', by rw [hD, hc]⟩)
            simp only [hne, decide_false]
            exact ih hm' hd.2
      rw [this]; rfl
    · intro hn
      show Except.ok (Option.getD (Dict.dayLabel _ _) _) = _
      rw [e2]
      unfold ruChange
      rw [List.find?_eq_none.2 (by intro r hr; simpa using hn r hr)]; rfl

/-- 4 July 2015 was a Saturday: the Friday before is a day off with long weekends only. -/
example : labelAt ((usCalendar).new (some (date 2015 7 1)) (some (date 2015 7 5))) (date 2015 7 3) = .ok 0 := by decide +kernel
example : labelAt ((usCalendar [] false).new (some (date 2015 7 1)) (some (date 2015 7 5))) (date 2015 7 3) = .ok 8 := by decide +kernel
/-- Christmas 2010 was a Saturday: Monday and Tuesday are substitute days. -/
example : labelAt ((ukCalendar).new (some (date 2010 12 20)) (some (date 2010 12 31))) (date 2010 12 28) = .ok 0 := by decide +kernel
example : UKOfYear "england" [] true 2010 (dayNum 2010 12 28) :=
  .inr (.inl ⟨rfl, dayNum 2010 12 26, .inr (.inr (.inr (.inr (.inr (.inr ⟨by simp, rfl⟩))))),
    .inr (.inr ⟨by decide, .inl (.inr (.inr (.inr (.inr (.inr (.inl ⟨by simp, by decide⟩)))))), by decide⟩)⟩)
/-- Sunday 26 February 2006 was a working day in Russia. -/
example : labelAt ((ruCalendar).new (some (date 2006 2 20)) (some (date 2006 2 28))) (date 2006 2 26) = .ok 8 := by decide +kernel
example : labelAt ((ruCalendar).new (some (date 2006 2 20)) (some (date 2006 2 28))) (date 2006 2 22) = .ok 7 := by decide +kernel

/-! ## C55 -/

/-- C55 for the British and Russian calendars. -/
theorem C55_uk_ru_same_label {c : Calendar} (hc : (∃ country dno lw, c = ukCalendar country dno lw) ∨ (∃ w s, c = ruCalendar w s))
    {cs ce cs' ce' : Option Time} {custom : Option (List (Time × Int))} {heap heap' : Heap Int} {tb tb' : Timeboard Int}
    (h : c.new cs ce false false custom heap = .ok tb) (h' : c.new cs' ce' false false custom heap' = .ok tb') (t : Time)
    (h1 : tb.startTime ≤ t) (h2 : t ≤ tb.endTime) (h1' : tb'.startTime ≤ t) (h2' : t ≤ tb'.endTime) :
    ∃ l, labelAt (.ok tb) t = .ok l ∧ labelAt (.ok tb') t = .ok l := by
  have hp : Preconfigured c := by
    rcases hc with ⟨country, dno, lw, rfl⟩ | ⟨w, s, rfl⟩
    · exact .uk _ _ _
    · exact .ru _ _
  obtain ⟨d, hd, hl⟩ := hp.label h
  obtain ⟨d', hd', hl'⟩ := hp.label h'
  obtain ⟨y1, y2, hl⟩ := hl t h1 h2
  obtain ⟨y1', y2', hl'⟩ := hl' t h1' h2'
  refine ⟨_, hl, hl'.trans ?_⟩
  have : d'.dayLabel (dayOf t) = d.dayLabel (dayOf t) := by
    generalize yearOf (dayOf (cs.getD c.start)) = a at *
    generalize yearOf (dayOf (ce.getD c.stop)) = b at *
    generalize yearOf (dayOf (cs'.getD c.start)) = a' at *
    generalize yearOf (dayOf (ce'.getD c.stop)) = b' at *
    rcases hc with ⟨country, dno, lw, rfl⟩ | ⟨w, s, rfl⟩
    · obtain ⟨x, e, hx, _⟩ := uk_daysOff country dno lw a b
      obtain ⟨x', e', hx', _⟩ := uk_daysOff country dno lw a' b'
      have g : bankHolidays a b country dno lw (0 : Int) = .ok d := hd
      have g' : bankHolidays a' b' country dno lw (0 : Int) = .ok d' := hd'
      rw [e] at g; cases g
      rw [e'] at g'; cases g'
      have key : ∀ a b, a ≤ yearOf (dayOf t) → yearOf (dayOf t) ≤ b →
          ((∃ y, a ≤ y ∧ y ≤ b ∧ UKOfYear country dno lw y (dayOf t)) ↔ UKOfYear country dno lw (yearOf (dayOf t)) (dayOf t)) := by
        intro a b ha hb
        constructor
        · rintro ⟨y, _, _, hy⟩
          have := inYear_iff.1 hy.inYear
          subst this; exact hy
        · intro hy; exact ⟨_, ha, hb, hy⟩
      by_cases hu : UKOfYear country dno lw (yearOf (dayOf t)) (dayOf t)
      · rw [hx.2.2.2.1 _ ((key _ _ y1 y2).2 hu), hx'.2.2.2.1 _ ((key _ _ y1' y2').2 hu)]
      · rw [hx.2.2.2.2 _ (fun h => hu ((key _ _ y1 y2).1 h)), hx'.2.2.2.2 _ (fun h => hu ((key _ _ y1' y2').1 h))]
    · have g : Except.ok (tsKeys ((ruChanges (if s then 7 else 8)).update (ruHolidays a b w))) = Except.ok d := hd
      have g' : Except.ok (tsKeys ((ruChanges (if s then 7 else 8)).update (ruHolidays a' b' w))) = Except.ok d' := hd'
      cases g; cases g'
      obtain ⟨_, _, _, r1, r2⟩ := ru_labels (if s then 7 else 8) a b w rfl
      obtain ⟨_, _, _, r1', r2'⟩ := ru_labels (if s then 7 else 8) a' b' w rfl
      have key : ∀ a b, a ≤ yearOf (dayOf t) → yearOf (dayOf t) ≤ b →
          ((∃ y, a ≤ y ∧ y ≤ b ∧ RUHoliday w y (dayOf t)) ↔ RUHoliday w (yearOf (dayOf t)) (dayOf t)) := by
        intro a b ha hb
        constructor
        · rintro ⟨y, _, _, hy⟩
          have := inYear_iff.1 hy.inYear
          subst this; exact hy
        · intro hy; exact ⟨_, ha, hb, hy⟩
      by_cases hu : RUHoliday w (yearOf (dayOf t)) (dayOf t)
      · rw [r1 _ ((key _ _ y1 y2).2 hu), r1' _ ((key _ _ y1' y2').2 hu)]
      · rw [r2 _ (fun h => hu ((key _ _ y1 y2).1 h)), r2' _ (fun h => hu ((key _ _ y1' y2').1 h))]
  rw [this]

/-- C55 in part for the American calendar: holds for all days but 31 December before a New Year on a Saturday, if long weekends are
asked for and the New Year is observed, and 26 December 2018, if the additional Christmas day is observed. -/
theorem C55_us_same_label_partial {dno : List String} {lw : Bool}
    {cs ce cs' ce' : Option Time} {custom : Option (List (Time × Int))} {heap heap' : Heap Int} {tb tb' : Timeboard Int}
    (h : (usCalendar dno lw).new cs ce false false custom heap = .ok tb) (h' : (usCalendar dno lw).new cs' ce' false false custom heap' = .ok tb') (t : Time)
    (h1 : tb.startTime ≤ t) (h2 : t ≤ tb.endTime) (h1' : tb'.startTime ≤ t) (h2' : t ≤ tb'.endTime)
    (hny : lw = false ∨ "new_year" ∈ dno ∨ weekday (dayOf t) ≠ 4 ∨ ∀ y, dayOf t ≠ dayNum y 12 31)
    (hxm : "xmas_additional_day" ∈ dno ∨ dayOf t ≠ dayNum 2018 12 26) :
    ∃ l, labelAt (.ok tb) t = .ok l ∧ labelAt (.ok tb') t = .ok l := by
  have hp := Preconfigured.us dno lw
  obtain ⟨d, hd, hl⟩ := hp.label h
  obtain ⟨d', hd', hl'⟩ := hp.label h'
  obtain ⟨y1, y2, hl⟩ := hl t h1 h2
  obtain ⟨y1', y2', hl'⟩ := hl' t h1' h2'
  refine ⟨_, hl, hl'.trans ?_⟩
  have : d'.dayLabel (dayOf t) = d.dayLabel (dayOf t) := by
    generalize yearOf (dayOf (cs.getD (usCalendar dno lw).start)) = a at *
    generalize yearOf (dayOf (ce.getD (usCalendar dno lw).stop)) = b at *
    generalize yearOf (dayOf (cs'.getD (usCalendar dno lw).start)) = a' at *
    generalize yearOf (dayOf (ce'.getD (usCalendar dno lw).stop)) = b' at *
    obtain ⟨x, e, hx, _⟩ := us_daysOff dno lw a b
    obtain ⟨x', e', hx', _⟩ := us_daysOff dno lw a' b'
    have g : fedHolidays a b dno lw (0 : Int) = .ok d := hd
    have g' : fedHolidays a' b' dno lw (0 : Int) = .ok d' := hd'
    rw [e] at g; cases g
    rw [e'] at g'; cases g'
    have hyear : ∀ y, USOfYear dno lw y (dayOf t) → y = yearOf (dayOf t) := by
      intro y hy
      rcases hy.inYear with hi | ⟨r1, r2, r3, r4⟩ | ⟨r1, r2, r3⟩
      · exact (inYear_iff.1 hi).symm
      · exfalso
        rcases hny with hn | hn | hn | hn
        · rw [r1] at hn; simp at hn
        · exact r2 hn
        · apply hn; rw [r3]; unfold weekday at *; omega
        · apply hn (y - 1)
          obtain ⟨l, hl, hy, _, _, _, _, _, _, _, h8⟩ := dayNum_ru (y - 1)
          rw [show y - 1 + 1 = y by omega] at hy
          rw [r3, h8]; omega
      · exfalso
        rcases hxm with hn | hn
        · exact r2 hn
        · exact hn r3
    have key : ∀ a b, a ≤ yearOf (dayOf t) → yearOf (dayOf t) ≤ b →
        ((∃ y, a ≤ y ∧ y ≤ b ∧ USOfYear dno lw y (dayOf t)) ↔ USOfYear dno lw (yearOf (dayOf t)) (dayOf t)) := by
      intro a b ha hb
      constructor
      · rintro ⟨y, _, _, hy⟩
        rw [← hyear y hy]; exact hy
      · intro hy; exact ⟨_, ha, hb, hy⟩
    by_cases hu : USOfYear dno lw (yearOf (dayOf t)) (dayOf t)
    · rw [hx.2.2.2.1 _ ((key _ _ y1 y2).2 hu), hx'.2.2.2.1 _ ((key _ _ y1' y2').2 hu)]
    · rw [hx.2.2.2.2 _ (fun h => hu ((key _ _ y1 y2).1 h)), hx'.2.2.2.2 _ (fun h => hu ((key _ _ y1' y2').1 h))]
  rw [this]

/-- C55 does not hold: 31 December 2010 is a working day if the calendar ends with it and a day off if it goes on. -/
theorem C55_new_year_fails :
    labelAt ((usCalendar).new (some (date 2010 12 20)) (some (date 2010 12 31))) (date 2010 12 31) = .ok 8 ∧
    labelAt ((usCalendar).new (some (date 2010 12 20)) (some (date 2011 1 1))) (date 2010 12 31) = .ok 0 := by decide +kernel

/-- With `do_not_amend` or `only_custom_amendments` the range does not matter. -/
theorem C55_options_same_label {c : Calendar} (hc : Preconfigured c) {cs ce cs' ce' : Option Time} {dna oc : Bool} (ho : dna = true ∨ oc = true)
    {custom : Option (List (Time × Int))} {heap heap' : Heap Int} {tb tb' : Timeboard Int}
    (h : c.new cs ce dna oc custom heap = .ok tb) (h' : c.new cs' ce' dna oc custom heap' = .ok tb') (t : Time)
    (h1 : tb.startTime ≤ t) (h2 : t ≤ tb.endTime) (h1' : tb'.startTime ≤ t) (h2' : t ≤ tb'.endTime) :
    ∃ l, labelAt (.ok tb) t = .ok l ∧ labelAt (.ok tb') t = .ok l := by
  cases dna with
  | true => exact ⟨_, C53_do_not_amend hc h t h1 h2, C53_do_not_amend hc h' t h1' h2'⟩
  | false =>
    cases oc with
    | false => simp at ho
    | true =>
      obtain ⟨g1, g2⟩ := C53_only_custom hc h t h1 h2
      obtain ⟨g1', g2'⟩ := C53_only_custom hc h' t h1' h2'
      by_cases hx : ∃ x ∈ custom.getD [], dayOf x.1 = dayOf t
      · obtain ⟨x, hx, hd⟩ := hx
        exact ⟨x.2, g1 x hx hd, g1' x hx hd⟩
      · have hn : ∀ x ∈ custom.getD [], dayOf x.1 ≠ dayOf t := fun x hx' hd => hx ⟨x, hx', hd⟩
        exact ⟨_, g2 hn, g2' hn⟩

/-! ## C56 -/

/-- On account of which years a day in December before Christmas or after it is off. -/
theorem us_december {dno : List String} {lw : Bool} {y Y o x : Int} (hd : DayOfYear Y 0 o x) (ho : 334 ≤ o ∧ o < 364) (ho' : o ≠ 358)
    (hw : weekday x = 4 → o ≠ 357) (hw' : weekday x = 0 → o ≠ 359) :
    USOfYear dno lw y x ↔
      (y = 2014 ∧ "xmas_additional_day" ∉ dno ∧ x = dayNum 2018 12 26) ∨ (y = 2018 ∧ "one_off" ∉ dno ∧ x = dayNum 2018 12 5) ∨
        (y = 2018 ∧ "xmas_additional_day" ∉ dno ∧ x = dayNum 2018 12 24) := by
  constructor
  · rintro (h | ⟨_, h, hf, hn⟩ | h | h)
    · obtain ⟨l, o', hd', ho2⟩ := h.offset
      have := hd'.1
      have := hd.unique hd' (by omega) (by omega)
      omega
    · obtain ⟨l, o', hd', ho2⟩ := hf.offset
      have := hd'.1
      have hd1 : DayOfYear Y 0 (o + (h - x)) h := ⟨hd.1, hd.2.1, by have := hd.2.2; omega⟩
      rcases hn with ⟨hw1, hn⟩ | ⟨hw1, hn⟩
      · have h4 : weekday x = 4 := by rw [hn]; unfold weekday at *; omega
        have := hd1.unique hd' (by omega) (by omega)
        have := hw h4
        omega
      · have h0 : weekday x = 0 := by rw [hn]; unfold weekday at *; omega
        have := hd1.unique hd' (by omega) (by omega)
        have := hw' h0
        omega
    · obtain ⟨l, o', hd', ho2⟩ := h.offset
      have := hd'.1
      have := hd.unique hd' (by omega) (by omega)
      omega
    · exact h
  · intro h
    exact .inr (.inr (.inr h))

theorem us_december_label {dno : List String} {lw : Bool} {cs ce : Option Time} {heap : Heap Int} {tb : Timeboard Int}
    (h : (usCalendar dno lw).new cs ce false false none heap = .ok tb) {t : Time} (h1 : tb.startTime ≤ t) (h2 : t ≤ tb.endTime) {P : Prop} [Decidable P]
    (hw : weekday (dayOf t) < 5)
    (hp : (∃ y, yearOf (dayOf (cs.getD (usCalendar).start)) ≤ y ∧ y ≤ yearOf (dayOf (ce.getD (usCalendar).stop)) ∧ USOfYear dno lw y (dayOf t)) ↔ P) :
    labelAt (.ok tb) t = .ok (if P then 0 else 8) := by
  obtain ⟨l, l1, l2, l3⟩ := C63_us_days_off h t h1 h2
  rw [hp] at l3
  rw [l1]
  congr 1
  split
  · rename_i hP; exact l3.2 (.inr hP)
  · rename_i hP
    rcases l2 with l2 | l2
    · rcases l3.1 l2 with h5 | h5
      · omega
      · exact absurd h5 hP
    · exact l2

theorem us_years {dno : List String} {lw : Bool} {cs ce : Option Time} {heap : Heap Int} {tb : Timeboard Int}
    (h : (usCalendar dno lw).new cs ce false false none heap = .ok tb) {t : Time} (h1 : tb.startTime ≤ t) (h2 : t ≤ tb.endTime) :
    yearOf (dayOf (cs.getD (usCalendar).start)) ≤ yearOf (dayOf t) ∧ yearOf (dayOf t) ≤ yearOf (dayOf (ce.getD (usCalendar).stop)) := by
  obtain ⟨_, _, hl⟩ := (Preconfigured.us dno lw).label h
  exact ⟨(hl t h1 h2).1, (hl t h1 h2).2.1⟩

/-- C56 does not hold: 26 December 2014, a Friday, is a working day in every range, and the day given for 2014 is 26 December 2018
(a Wednesday), off in the ranges beginning in 2014 or before and working in the ranges beginning later. -/
theorem C56_one_off_fails {dno : List String} {lw : Bool} {cs ce : Option Time} {heap : Heap Int} {tb : Timeboard Int}
    (h : (usCalendar dno lw).new cs ce false false none heap = .ok tb) :
    (tb.startTime ≤ date 2014 12 26 → date 2014 12 26 ≤ tb.endTime → labelAt (.ok tb) (date 2014 12 26) = .ok 8) ∧
    ("xmas_additional_day" ∉ dno → tb.startTime ≤ date 2018 12 26 → date 2018 12 26 ≤ tb.endTime →
      labelAt (.ok tb) (date 2018 12 26) = .ok (if yearOf (dayOf (cs.getD (usCalendar).start)) ≤ 2014 then 0 else 8)) := by
  constructor
  · intro h1 h2
    refine us_december_label (P := False) h h1 h2 (by decide) ⟨?_, False.elim⟩
    rintro ⟨y, _, _, hy⟩
    rw [us_december (Y := 2014) (o := 359) ⟨.inl rfl, by decide, by decide⟩ (by omega) (by omega) (by decide) (by decide)] at hy
    rcases hy with ⟨_, _, e⟩ | ⟨_, _, e⟩ | ⟨_, _, e⟩
    · exact absurd e (by decide)
    · exact absurd e (by decide)
    · exact absurd e (by decide)
  · intro hx h1 h2
    obtain ⟨_, y2⟩ := us_years h h1 h2
    have e18 : yearOf (dayOf (date 2018 12 26)) = 2018 := by decide
    rw [e18] at y2
    refine us_december_label h h1 h2 (by decide) ?_
    constructor
    · rintro ⟨y, hy1, _, hy⟩
      rw [us_december (Y := 2018) (o := 359) ⟨.inl rfl, by decide, by decide⟩ (by omega) (by omega) (by decide) (by decide)] at hy
      rcases hy with ⟨rfl, _⟩ | ⟨_, _, e⟩ | ⟨_, _, e⟩
      · exact hy1
      · exact absurd e (by decide)
      · exact absurd e (by decide)
    · intro hle
      exact ⟨2014, hle, by omega, .inr (.inr (.inr (.inl ⟨rfl, hx, by decide⟩)))⟩

/-- C56 in part: the days given for 2018 are off in every range, unless they are not observed. Missing: the day given for 2014. -/
theorem C56_one_off_partial {dno : List String} {lw : Bool} {cs ce : Option Time} {heap : Heap Int} {tb : Timeboard Int}
    (h : (usCalendar dno lw).new cs ce false false none heap = .ok tb) :
    (tb.startTime ≤ date 2018 12 5 → date 2018 12 5 ≤ tb.endTime →
      labelAt (.ok tb) (date 2018 12 5) = .ok (if "one_off" ∈ dno then 8 else 0)) ∧
    (tb.startTime ≤ date 2018 12 24 → date 2018 12 24 ≤ tb.endTime →
      labelAt (.ok tb) (date 2018 12 24) = .ok (if "xmas_additional_day" ∈ dno then 8 else 0)) := by
  constructor
  · intro h1 h2
    obtain ⟨y1, y2⟩ := us_years h h1 h2
    have e18 : yearOf (dayOf (date 2018 12 5)) = 2018 := by decide
    rw [e18] at y1 y2
    rw [← ite_not]
    refine us_december_label h h1 h2 (by decide) ?_
    constructor
    · rintro ⟨y, hy1, _, hy⟩
      rw [us_december (Y := 2018) (o := 338) ⟨.inl rfl, by decide, by decide⟩ (by omega) (by omega) (by decide) (by decide)] at hy
      rcases hy with ⟨_, _, e⟩ | ⟨_, e, _⟩ | ⟨_, _, e⟩
      · exact absurd e (by decide)
      · exact e
      · exact absurd e (by decide)
    · intro hn
      exact ⟨2018, y1, y2, .inr (.inr (.inr (.inr (.inl ⟨rfl, hn, by decide⟩))))⟩
  · intro h1 h2
    obtain ⟨y1, y2⟩ := us_years h h1 h2
    have e18 : yearOf (dayOf (date 2018 12 24)) = 2018 := by decide
    rw [e18] at y1 y2
    rw [← ite_not]
    refine us_december_label h h1 h2 (by decide) ?_
    constructor
    · rintro ⟨y, hy1, _, hy⟩
      rw [us_december (Y := 2018) (o := 357) ⟨.inl rfl, by decide, by decide⟩ (by omega) (by omega) (by decide) (by decide)] at hy
      rcases hy with ⟨_, _, e⟩ | ⟨_, _, e⟩ | ⟨_, e, _⟩
      · exact absurd e (by decide)
      · exact absurd e (by decide)
      · exact e
    · intro hn
      exact ⟨2018, y1, y2, .inr (.inr (.inr (.inr (.inr ⟨rfl, hn, by decide⟩))))⟩

/-- The hypothesis is met by every supported range; the same day in two of them. -/
example : labelAt ((usCalendar).new (some (date 2014 12 20)) (some (date 2014 12 31))) (date 2014 12 26) = .ok 8 := by decide +kernel
example : labelAt ((usCalendar).new (some (date 2018 12 20)) (some (date 2018 12 31))) (date 2018 12 26) = .ok 8 := by decide +kernel
example : labelAt ((usCalendar).new (some (date 2018 12 1)) (some (date 2018 12 31))) (date 2018 12 5) = .ok 0 := by decide +kernel

end TB
