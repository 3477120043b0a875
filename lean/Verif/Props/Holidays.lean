import Verif.Lemmas.Seek
import Verif.Lemmas.Extend
import Verif.Lemmas.Easter
/-! Properties C48, C50, C51, C57: the functions which calculate holidays for the calendars. -/
namespace TB

/-! ## C48: n-th weekday of a month -/

/-- C48. With permitted parameters the dictionary has exactly the days which are the n-th weekdays of the months, shifted, all with
the given label; what does not exist is left out (or all exist and `errors='raise'`). -/
theorem C48_nth_weekday_of_month {V : Type} (year : Int) (seek : List SeekDate) (label : V) (raising : Bool)
    (hok : ∀ s ∈ seek, (1 ≤ s.month ∧ s.month ≤ 12) ∧ (1 ≤ s.weekday ∧ s.weekday ≤ 7) ∧ ((1 ≤ s.n ∧ s.n ≤ 5) ∨ (-5 ≤ s.n ∧ s.n ≤ -1)))
    (hr : raising = false ∨ ∀ s ∈ seek, ∃ d, IsNthWeekday (12 * (year - 1970) + (s.month - 1)) (s.weekday - 1) s.n d) :
    ∃ d, nthWeekdays year seek label raising = .ok d ∧ (d.map Prod.fst).Nodup ∧
      ∀ t v, (t, v) ∈ d ↔ v = label ∧ ∃ s ∈ seek, ∃ x, IsNthWeekday (12 * (year - 1970) + (s.month - 1)) (s.weekday - 1) s.n x ∧
        t = (x + s.shift) * nsDay := by
  obtain ⟨d, e, h1, h2, h3⟩ := seekLoop_ok year label raising seek hok
    (hr.imp id (fun h s hs => by obtain ⟨x, hx⟩ := h s hs; exact ⟨_, x, hx, rfl⟩)) []
  have hd := h1 Dict.Distinct.nil
  refine ⟨d, by rw [nthWeekdays_eq]; exact e, hd, ?_⟩
  intro t v
  rw [Dict.mem_iff hd]
  by_cases h : ∃ s ∈ seek, s.Hits year t
  · rw [h2 t h]
    constructor
    · intro hv; exact ⟨by simpa using hv.symm, h⟩
    · rintro ⟨rfl, -⟩; rfl
  · rw [h3 t h]
    constructor
    · intro hv; cases hv
    · rintro ⟨-, h'⟩; exact absurd h' h

/-- C48. A date to seek which is given without a shift is not shifted, and errors are ignored unless asked for. -/
theorem C48_default_shift {V : Type} (year month weekday n : Int) (label : V) :
    nthWeekdays year [{ month := month, weekday := weekday, n := n }] label =
      nthWeekdays year [{ month := month, weekday := weekday, n := n, shift := 0 }] label false := rfl

/-- C48. There is at most one such day. -/
theorem C48_unique (k wd n d d' : Int) (hw0 : 0 ≤ wd) (hw1 : wd < 7) (hn : n ≠ 0) (h : IsNthWeekday k wd n d) (h' : IsNthWeekday k wd n d') :
    d = d' := h.unique hw0 hw1 hn h'

/-- C48. The first four of each weekday, from either end of the month, always exist. -/
theorem C48_exists (k wd n : Int) (hw0 : 0 ≤ wd) (hw1 : wd < 7) (hn : (1 ≤ n ∧ n ≤ 4) ∨ (-4 ≤ n ∧ n ≤ -1)) : ∃ d, IsNthWeekday k wd n d := by
  have hl : monthStart k + 28 ≤ monthStart (k + 1) := by
    have := monthStart_step k
    omega
  rcases hn with h | h
  · exact ⟨_, (isNthWeekday_pos hw0 hw1 (by omega)).2 ⟨rfl, by omega⟩⟩
  · exact ⟨_, (isNthWeekday_neg hw0 hw1 (by omega)).2 ⟨rfl, by omega⟩⟩

/-- C48. Errors: the first item with parameters not permitted raises AssertionError; the first one which does not exist raises
OutOfBoundsError if `errors='raise'`. -/
theorem C48_errors {V : Type} (year : Int) (good : List SeekDate) (s : SeekDate) (rest : List SeekDate) (label : V) (raising : Bool)
    (hok : ∀ s ∈ good, (1 ≤ s.month ∧ s.month ≤ 12) ∧ (1 ≤ s.weekday ∧ s.weekday ≤ 7) ∧ ((1 ≤ s.n ∧ s.n ≤ 5) ∨ (-5 ≤ s.n ∧ s.n ≤ -1)))
    (hr : raising = false ∨ ∀ s ∈ good, ∃ d, IsNthWeekday (12 * (year - 1970) + (s.month - 1)) (s.weekday - 1) s.n d) :
    (¬ ((1 ≤ s.month ∧ s.month ≤ 12) ∧ (1 ≤ s.weekday ∧ s.weekday ≤ 7) ∧ ((1 ≤ s.n ∧ s.n ≤ 5) ∨ (-5 ≤ s.n ∧ s.n ≤ -1))) →
      nthWeekdays year (good ++ s :: rest) label raising = .error .assertionError) ∧
    ((1 ≤ s.month ∧ s.month ≤ 12) ∧ (1 ≤ s.weekday ∧ s.weekday ≤ 7) ∧ ((1 ≤ s.n ∧ s.n ≤ 5) ∨ (-5 ≤ s.n ∧ s.n ≤ -1)) → raising = true →
      (∀ d, ¬ IsNthWeekday (12 * (year - 1970) + (s.month - 1)) (s.weekday - 1) s.n d) →
      nthWeekdays year (good ++ s :: rest) label raising = .error .outOfBounds) := by
  have := seekLoop_error year label raising good s rest hok
    (hr.imp id (fun h s hs => by obtain ⟨x, hx⟩ := h s hs; exact ⟨_, x, hx, rfl⟩)) []
  rw [nthWeekdays_eq]
  exact ⟨this.1, fun h1 h2 h3 => this.2 h1 h2 (by rintro ⟨_, x, hx, _⟩; exact h3 x hx)⟩

/-- Memorial Day and Labor Day of 2017, and the day after the fifth Monday of February, which 2017 does not have. -/
example : nthWeekdays 2017 [⟨5, 1, -1, 0⟩, ⟨9, 1, 1, 0⟩, ⟨2, 1, 5, 1⟩] (0 : Int) = .ok [(date 2017 5 29, 0), (date 2017 9 4, 0)] := by
  decide +kernel
example : IsNthWeekday (12 * (2017 - 1970) + 4) 0 (-1) (dayNum 2017 5 29) := by unfold IsNthWeekday; decide +kernel
/-- Black Friday of 2015: the day after the fourth Thursday of November. -/
example : nthWeekdays 2015 [⟨11, 4, 4, 1⟩] (0 : Int) true = .ok [(date 2015 11 27, 0)] := by decide +kernel
example : nthWeekdays 2017 [⟨5, 1, -1, 0⟩, ⟨2, 1, 5, 1⟩] (0 : Int) true = .error .outOfBounds := by decide +kernel
example : nthWeekdays 2017 [⟨5, 1, -1, 0⟩, ⟨2, 8, 5, 1⟩] (0 : Int) = .error .assertionError := by decide +kernel

/-! ## C50, C51: extension of weekends -/

/-- C50. All given days are kept with their labels; to each given day which falls on the weekend, in ascending order, one
more day is added: the first not taken one looking from the edge of the weekend in the direction required; nothing else is
added. The added day has the label given, or else the label of its holiday. -/
theorem C50_extend_weekends {V : Type} (am : List (Time × V)) (how : String) (label : Option V) (weekend : List Int)
    (hhow : how = "previous" ∨ how = "next" ∨ how = "nearest") (hc : ConsecutiveDays weekend) (hd : (am.map Prod.fst).Nodup)
    (hday : ∀ x ∈ am, ∃ k : Int, x.1 = k * nsDay) :
    ∃ d added, extendWeekends am how label weekend = .ok d ∧ (d.map Prod.fst).Nodup ∧
      (added.map Prod.fst).Pairwise (· < ·) ∧
      (∀ h : Int, h ∈ added.map Prod.fst ↔ (∃ v, (h * nsDay, v) ∈ am) ∧ weekday h ∈ weekend) ∧
      Extension how weekend (fun x => ∃ v, (x * nsDay, v) ∈ am) added ∧
      ∀ t v, (t, v) ∈ d ↔ ((t, v) ∈ am ∨ ∃ p ∈ added, t = p.2 * nsDay ∧ (label = some v ∨ (label = none ∧ (p.1 * nsDay, v) ∈ am))) :=
  extendWeekends_spec (by simpa using hhow) hc label am hd hday

theorem Extension.free {how : String} {weekend : List Int} {taken : Int → Prop} {added : List (Int × Int)} (h : Extension how weekend taken added) :
    (∀ p ∈ added, ¬ taken p.2) ∧ (added.map Prod.snd).Nodup := by
  induction h with
  | nil => simp
  | @cons taken h e dir j rest hs hj hn hr ih =>
    constructor
    · intro p hp
      rcases List.mem_cons.1 hp with rfl | hp
      · exact hn
      · exact fun ht => ih.1 p hp (.inl ht)
    · rw [List.map_cons, List.nodup_cons]
      refine ⟨?_, ih.2⟩
      intro hm
      obtain ⟨p, hp, e⟩ := List.mem_map.1 hm
      exact ih.1 p hp (.inr e)

/-- C50. As many days are added as there are given days on the weekend. -/
theorem C50_count {V : Type} (am : List (Time × V)) (how : String) (label : Option V) (weekend : List Int)
    (hhow : how = "previous" ∨ how = "next" ∨ how = "nearest") (hc : ConsecutiveDays weekend) (hd : (am.map Prod.fst).Nodup)
    (hday : ∀ x ∈ am, ∃ k : Int, x.1 = k * nsDay) :
    ∃ d, extendWeekends am how label weekend = .ok d ∧
      d.length = am.length + (am.filter (fun x => decide (weekday (dayOf x.1) ∈ weekend))).length := by
  obtain ⟨d, added, e, hdd, hs, hm, hx, hi⟩ := C50_extend_weekends am how label weekend hhow hc hd hday
  refine ⟨d, e, ?_⟩
  have hfree := hx.free
  have hl : added.length = (am.filter (fun x => decide (weekday (dayOf x.1) ∈ weekend))).length := by
    have h1 : (added.map (fun p => p.1 * nsDay)).Nodup := by
      have : (added.map (fun p => p.1 * nsDay)) = (added.map Prod.fst).map (· * nsDay) := by rw [List.map_map]; rfl
      rw [this, List.Nodup, List.pairwise_map]
      exact hs.imp (fun h h2 => by unfold nsDay at h2; omega)
    have h2 : ((am.filter (fun x => decide (weekday (dayOf x.1) ∈ weekend))).map Prod.fst).Nodup := hd.sublist (List.filter_sublist.map _)
    have h3 : ∀ t, t ∈ added.map (fun p => p.1 * nsDay) ↔ t ∈ (am.filter (fun x => decide (weekday (dayOf x.1) ∈ weekend))).map Prod.fst := by
      intro t
      simp only [List.mem_map, List.mem_filter, decide_eq_true_eq]
      constructor
      · rintro ⟨p, hp, rfl⟩
        obtain ⟨⟨v, hv⟩, hw⟩ := (hm p.1).1 (List.mem_map_of_mem hp)
        refine ⟨(_, v), ⟨hv, ?_⟩, rfl⟩
        show weekday (p.1 * nsDay / nsDay) ∈ weekend
        rw [Int.mul_ediv_cancel _ (by decide)]; exact hw
      · rintro ⟨x, ⟨hx, hw⟩, rfl⟩
        obtain ⟨k, hk⟩ := hday x hx
        have hw' : weekday k ∈ weekend := by
          rw [hk] at hw
          have hw : weekday (k * nsDay / nsDay) ∈ weekend := hw
          rw [Int.mul_ediv_cancel _ (by decide)] at hw; exact hw
        obtain ⟨p, hp, e⟩ := List.mem_map.1 ((hm k).2 ⟨⟨x.2, by rw [← hk]; exact hx⟩, hw'⟩)
        exact ⟨p, hp, by rw [e, hk]⟩
    have := nodup_length_le h1 (fun t ht => (h3 t).1 ht)
    have := nodup_length_le h2 (fun t ht => (h3 t).2 ht)
    simp only [List.length_map] at *
    omega
  rw [← hl]
  have ha : (am.map Prod.fst ++ added.map (fun p => p.2 * nsDay)).Nodup := by
    rw [List.nodup_append]
    refine ⟨hd, ?_, ?_⟩
    · have : (added.map (fun p => p.2 * nsDay)) = (added.map Prod.snd).map (· * nsDay) := by rw [List.map_map]; rfl
      rw [this, List.Nodup, List.pairwise_map]
      exact hfree.2.imp (fun h h2 => h (Int.eq_of_mul_eq_mul_right (by decide) h2))
    · intro a ha b hb hab
      obtain ⟨p, hp, e⟩ := List.mem_map.1 hb
      obtain ⟨x, hx, e2⟩ := List.mem_map.1 ha
      exact hfree.1 p hp ⟨x.2, by rw [e, ← hab, ← e2]; exact hx⟩
  have h3 : ∀ t, t ∈ d.map Prod.fst ↔ t ∈ am.map Prod.fst ++ added.map (fun p => p.2 * nsDay) := by
    intro t
    simp only [List.mem_append, List.mem_map]
    constructor
    · rintro ⟨x, hx, rfl⟩
      rcases (hi x.1 x.2).1 hx with h | ⟨p, hp, e, _⟩
      · left; exact ⟨x, h, rfl⟩
      · right; exact ⟨p, hp, e.symm⟩
    · rintro (⟨x, hx, rfl⟩ | ⟨p, hp, rfl⟩)
      · exact ⟨x, (hi x.1 x.2).2 (.inl hx), rfl⟩
      · cases label with
        | some v => exact ⟨(_, v), (hi _ v).2 (.inr ⟨p, hp, rfl, .inl rfl⟩), rfl⟩
        | none =>
          obtain ⟨⟨v, hv⟩, -⟩ := (hm p.1).1 (List.mem_map_of_mem hp)
          exact ⟨(_, v), (hi _ v).2 (.inr ⟨p, hp, rfl, .inr ⟨rfl, hv⟩⟩), rfl⟩
  have h4 := nodup_length_le hdd (fun t ht => (h3 t).1 ht)
  have h5 := nodup_length_le ha (fun t ht => (h3 t).2 ht)
  simp only [List.length_map, List.length_append] at *
  omega

/-- C50. A wrong value of `how` raises AssertionError. -/
theorem C50_wrong_how {V : Type} (am : List (Time × V)) (how : String) (label : Option V) (weekend : List Int)
    (hhow : how ≠ "previous" ∧ how ≠ "next" ∧ how ≠ "nearest") : extendWeekends am how label weekend = .error .assertionError := by
  unfold extendWeekends
  rw [if_pos (by simpa using hhow)]

/-- Christmas and Boxing Day 2010 were Saturday and Sunday; Monday and Tuesday are added. -/
example : extendWeekends [(date 2010 12 26, (1 : Int)), (date 2010 12 25, 0), (date 2010 12 22, 5)] "next" =
    .ok [(date 2010 12 26, 1), (date 2010 12 25, 0), (date 2010 12 22, 5), (date 2010 12 27, 0), (date 2010 12 28, 1)] := by decide +kernel
/-- The nearest weekdays: Friday for Saturday and Monday for Sunday. -/
example : extendWeekends [(date 2010 12 26, (1 : Int)), (date 2010 12 25, 0)] "nearest" (some 7) =
    .ok [(date 2010 12 26, 1), (date 2010 12 25, 0), (date 2010 12 24, 7), (date 2010 12 27, 7)] := by decide +kernel
example : ConsecutiveDays [5, 6] := ⟨by decide, 5, by decide⟩
example : ConsecutiveDays [6, 0] := ⟨by decide, 6, by decide⟩

/-- C51, negation: the documentation says that the label is assigned to a weekday, but a cluster of holidays leads to the weekend:
the holidays of 1-6 January 2017 (Sunday to Friday) extend onto Saturday 7 January. -/
theorem C51_may_be_weekend :
    extendWeekends [(date 2017 1 1, (0 : Int)), (date 2017 1 2, 0), (date 2017 1 3, 0), (date 2017 1 4, 0), (date 2017 1 5, 0), (date 2017 1 6, 0)] "next" =
      .ok [(date 2017 1 1, 0), (date 2017 1 2, 0), (date 2017 1 3, 0), (date 2017 1 4, 0), (date 2017 1 5, 0), (date 2017 1 6, 0), (date 2017 1 7, 0)] ∧
    weekday (dayOf (date 2017 1 7)) ∈ [5, 6] := by decide +kernel

/-- C51, with the condition which is missing in the code: if there are never more given days than weekdays of one week (7 minus the
length of the weekend) among the days of a week and two adjacent weekends, the added days are weekdays. -/
theorem C51_weekday_partial {V : Type} (am : List (Time × V)) (how : String) (label : Option V) (weekend : List Int)
    (hhow : how = "previous" ∨ how = "next" ∨ how = "nearest") (hc : ConsecutiveDays weekend) (hd : (am.map Prod.fst).Nodup)
    (hday : ∀ x ∈ am, ∃ k : Int, x.1 = k * nsDay)
    (hroom : ∀ x : Int, (am.filter (fun a => decide (x ≤ dayOf a.1 ∧ dayOf a.1 < x + 7 + weekend.length))).length ≤ 7 - weekend.length) :
    ∃ d, extendWeekends am how label weekend = .ok d ∧
      ∀ t v, (t, v) ∈ d → (t, v) ∈ am ∨ weekday (dayOf t) ∉ weekend := by
  obtain ⟨d, added, e, -, hs, hm, hx, hi⟩ := C50_extend_weekends am how label weekend hhow hc hd hday
  refine ⟨d, e, ?_⟩
  have hdm : ∀ k : Int, dayOf (k * nsDay) = k := fun k => Int.mul_ediv_cancel _ (by decide)
  have hinv : ∀ a ∈ am, dayOf a.1 * nsDay = a.1 := by
    intro a ha; obtain ⟨k, hk⟩ := hday a ha; rw [hk, hdm]
  have hmem : ∀ k : Int, k ∈ am.map (fun a => dayOf a.1) ↔ ∃ v, (k * nsDay, v) ∈ am := by
    intro k
    rw [List.mem_map]
    constructor
    · rintro ⟨a, ha, rfl⟩; exact ⟨a.2, by rw [hinv a ha]; exact ha⟩
    · rintro ⟨v, hv⟩; exact ⟨_, hv, hdm k⟩
  have key := hx.weekday hc (am.map (fun a => dayOf a.1))
    (by
      intro x
      have := hroom x
      rw [List.filter_map, List.length_map]
      exact this)
    (by intro x; rw [hmem]) (by intro p hp; rw [hmem]; exact ((hm p.1).1 (List.mem_map_of_mem hp)).1)
    (hs.imp (fun h => by omega))
  intro t v htv
  rcases (hi t v).1 htv with h | ⟨p, hp, rfl, -⟩
  · exact .inl h
  · right; rw [hdm]; exact key p hp

/-- Christmas and Boxing Day meet the condition. -/
example : ∀ x : Int, ([(date 2010 12 26, (1 : Int)), (date 2010 12 25, 0)].filter
    (fun a => decide (x ≤ dayOf a.1 ∧ dayOf a.1 < x + 7 + (2 : Nat)))).length ≤ 7 - 2 := by
  intro x
  have := List.length_filter_le (fun a : Time × Int => decide (x ≤ dayOf a.1 ∧ dayOf a.1 < x + 7 + (2 : Nat))) [(date 2010 12 26, (1 : Int)), (date 2010 12 25, 0)]
  simp only [List.length_cons, List.length_nil] at this
  omega

/-! ## C57: Easter -/

/-- C57. `from_easter` yields the days at the given distances from Easter, with the label. -/
theorem C57_from_easter {V : Type} (orthodox : Bool) (year : Int) (shifts : List Int) (label : V) :
    ((easterDates orthodox year shifts label).map Prod.fst).Nodup ∧
    ∀ t v, (t, v) ∈ easterDates orthodox year shifts label ↔ v = label ∧ ∃ s ∈ shifts, t = (easterDay orthodox year + s) * nsDay := by
  have hd : (easterDates orthodox year shifts label).Distinct := Dict.Distinct.nil.update _
  refine ⟨hd, ?_⟩
  intro t v
  rw [Dict.mem_iff hd]
  unfold easterDates
  rw [Dict.get?_update, ← List.map_reverse]
  have : (fun s : Int => ((easterDay orthodox year + s) * nsDay, label)) = (fun a => (a, label)) ∘ (fun s : Int => (easterDay orthodox year + s) * nsDay) := rfl
  rw [this, ← List.map_map, Dict.get?_const, Dict.get?_nil, Option.or_none]
  simp only [List.mem_map, List.mem_reverse, Option.ite_none_right_eq_some, Option.some.injEq]
  constructor
  · rintro ⟨⟨s, hs, e⟩, rfl⟩; exact ⟨rfl, s, hs, e.symm⟩
  · rintro ⟨rfl, s, hs, e⟩; exact ⟨⟨s, hs, e.symm⟩, rfl⟩

/-- C57. The western Easter is a Sunday from 22 March to 25 April, every year; the orthodox one is a Sunday in all the years for which
dateutil supports it. -/
theorem C57_sunday (y : Int) :
    weekday (easterDay false y) = 6 ∧ dayNum y 3 22 ≤ easterDay false y ∧ easterDay false y ≤ dayNum y 4 25 ∧
    (1583 ≤ y → y ≤ 4099 → weekday (easterDay true y) = 6) :=
  ⟨easter_sunday y, (easter_bounds y).1, (easter_bounds y).2, orthodox_sunday y⟩

/-- C57. The western Easter is the date given by the algorithm of the literature, every year; the orthodox Easter is the Julian
date converted to the Gregorian calendar. -/
theorem C57_date (y : Int) :
    easterDay false y = dayNum y (gregorianEaster y).1 (gregorianEaster y).2 ∧
    (1583 ≤ y → y ≤ 4099 → easterDay true y = dayNum y (julianEaster y).1 (julianEaster y).2 + (y / 100 - y / 100 / 4 - 2)) :=
  ⟨easterDay_western_eq y, easterDay_orthodox_eq y⟩

/-- C57. The movable holidays of the British calendar are Friday two days before, and Monday one day after, Easter. -/
theorem C57_uk_weekdays {V : Type} (doNotObserve : List String) (y : Int) (label : V) :
    ∀ x ∈ easterDates false y (observed doNotObserve ukEaster) label,
      (x.1 = (easterDay false y - 2) * nsDay ∧ weekday (dayOf x.1) = 4 ∧ "good_friday" ∉ doNotObserve) ∨
      (x.1 = (easterDay false y + 1) * nsDay ∧ weekday (dayOf x.1) = 0 ∧ "easter_monday" ∉ doNotObserve) := by
  rintro ⟨t, v⟩ h
  rw [(C57_from_easter _ _ _ _).2] at h
  obtain ⟨-, s, hs, rfl⟩ := h
  unfold observed ukEaster at hs
  simp only [List.mem_map, List.mem_filter, List.mem_cons, List.not_mem_nil, or_false] at hs
  have hdm : ∀ k : Int, dayOf (k * nsDay) = k := fun k => Int.mul_ediv_cancel _ (by decide)
  have h6 := easter_sunday y
  obtain ⟨p, ⟨rfl | rfl, hn⟩, rfl⟩ := hs
  · left
    simp only [hdm]
    refine ⟨by congr 1, ?_, by simpa using hn⟩
    unfold weekday at *; omega
  · right
    simp only [hdm]
    refine ⟨trivial, ?_, by simpa using hn⟩
    unfold weekday at *; omega

/-- Good Friday and Easter Monday of 2017. -/
example : easterDates false 2017 [-2, 1] (0 : Int) = [(date 2017 4 14, 0), (date 2017 4 17, 0)] := by decide +kernel
example : easterDay true 2016 = dayNum 2016 5 1 ∧ easterDay false 2016 = dayNum 2016 3 27 := by decide +kernel

end TB
