import Verif.Lemmas.CalendarDays
/-! The years to which the days of the tables belong. -/
namespace TB

/-- Day `x` belongs to year `y`. -/
def InYear (y x : Int) : Prop := yearStart y ≤ x ∧ x < yearStart (y + 1)

theorem InYear.unique {y y' x : Int} (h : InYear y x) (h' : InYear y' x) : y = y' := by
  unfold InYear at h h'
  have : y < y' ∨ y = y' ∨ y' < y := by omega
  rcases this with hlt | rfl | hlt
  · have := yearStart_le (show y + 1 ≤ y' by omega); omega
  · rfl
  · have := yearStart_le (show y' + 1 ≤ y by omega); omega

theorem inYear_iff {y x : Int} : InYear y x ↔ yearOf x = y := by
  constructor
  · intro h; exact (InYear.unique (yearOf_spec x) h)
  · rintro rfl; exact yearOf_spec x

theorem DayOfYear.inYear {y l o x : Int} (h : DayOfYear y l o x) (h0 : 0 ≤ o) (h1 : o < 365 + l) : InYear y x := by
  obtain ⟨_, h2, h3⟩ := h; unfold InYear; omega

theorem dayNum_ru (y : Int) : ∃ l : Int, (l = 0 ∨ l = 1) ∧ yearStart (y + 1) = yearStart y + 365 + l ∧
    (∀ k, dayNum y 1 k = yearStart y + (k - 1)) ∧ dayNum y 2 23 = yearStart y + 53 ∧ dayNum y 3 8 = yearStart y + (66 + l) ∧
    dayNum y 5 1 = yearStart y + (120 + l) ∧ dayNum y 5 9 = yearStart y + (128 + l) ∧ dayNum y 6 12 = yearStart y + (162 + l) ∧
    dayNum y 11 4 = yearStart y + (307 + l) ∧ dayNum y 12 31 = yearStart y + (364 + l) := by
  refine ⟨if isLeap y then 1 else 0, by split <;> simp, ?_, ?_⟩
  · rw [yearStart_succ]; split <;> omega
  · have e : ∀ m : Int, 1 ≤ m → m ≤ 12 → (12 * (y - 1970) + (m - 1)) / 12 = y - 1970 ∧ (12 * (y - 1970) + (m - 1)) % 12 = m - 1 := by
      intro m h1 h2; omega
    have e' : (1970 + (y - 1970) : Int) = y := by omega
    unfold dayNum monthStart
    refine ⟨?_, ?_, ?_, ?_, ?_, ?_, ?_, ?_⟩
    · intro k
      rw [(e _ (by decide) (by decide)).1, (e _ (by decide) (by decide)).2, e']
      simp only [daysBefore, cumDays]
      simp
    all_goals
      rw [(e _ (by decide) (by decide)).1, (e _ (by decide) (by decide)).2, e']
      simp only [daysBefore, cumDays]
      simp
      try omega

theorem RUHoliday.inYear {w : Bool} {y x : Int} (h : RUHoliday w y x) : InYear y x := by
  obtain ⟨l, hl, hy, h1, h2, h3, h4, h5, h6, h7, h8⟩ := dayNum_ru y
  have key : ∀ o, x = yearStart y + o → 0 ≤ o → o < 365 + l → InYear y x := fun o h0 h1 h2 => DayOfYear.inYear ⟨hl, hy, h0⟩ h1 h2
  rcases h with ⟨k, k1, k2, h⟩ | h | h | h | h | h | h | ⟨_, h⟩
  · exact key _ (h.trans (h1 k)) (by omega) (by omega)
  · exact key _ (h.trans h2) (by omega) (by omega)
  · exact key _ (h.trans h3) (by omega) (by omega)
  · exact key _ (h.trans h4) (by omega) (by omega)
  · exact key _ (h.trans h5) (by omega) (by omega)
  · exact key _ (h.trans h6) (by omega) (by omega)
  · exact key _ (h.trans h7) (by omega) (by omega)
  · exact key _ (h.trans h8) (by omega) (by omega)

theorem USFixed.inYear {dno : List String} {y x : Int} (h : USFixed dno y x) : InYear y x := by
  obtain ⟨l, o, hd, ho⟩ := h.offset
  have := hd.1
  exact hd.inYear (by omega) (by omega)

theorem USFloating.inYear {dno : List String} {y x : Int} (h : USFloating dno y x) : InYear y x := by
  obtain ⟨l, o, hd, ho⟩ := h.offset
  have := hd.1
  exact hd.inYear (by omega) (by omega)

theorem UKOfYear.inYear {country : String} {dno : List String} {lw : Bool} {y x : Int} (h : UKOfYear country dno lw y x) : InYear y x := by
  rcases h with h | ⟨_, h, hf, hs⟩ | ⟨h, _⟩ | ⟨hr, h⟩
  · obtain ⟨l, o, hd, ho⟩ := h.offset
    have := hd.1
    exact hd.inYear (by omega) (by omega)
  · obtain ⟨l, o, hd, ho⟩ := hf.offset
    have := hd.1
    have hn := hs.near
    have hd1 : DayOfYear y l (o + (x - h)) x := ⟨hd.1, hd.2.1, by have := hd.2.2; omega⟩
    exact hd1.inYear (by omega) (by omega)
  · obtain ⟨l, o, hd, ho⟩ := h.offset
    have := hd.1
    exact hd.inYear (by omega) (by omega)
  · rcases h with ⟨rfl, rfl | rfl⟩ | ⟨rfl, rfl⟩ | ⟨rfl, rfl | rfl⟩ <;> unfold InYear <;> decide

/-- US: a day off on account of another year is the Friday before 1 January on a Saturday, or 26 December 2018. -/
theorem USOfYear.inYear {dno : List String} {lw : Bool} {y x : Int} (h : USOfYear dno lw y x) :
    InYear y x ∨ (lw = true ∧ "new_year" ∉ dno ∧ x = yearStart y - 1 ∧ weekday (yearStart y) = 5) ∨
      (y = 2014 ∧ "xmas_additional_day" ∉ dno ∧ x = dayNum 2018 12 26) := by
  rcases h with h | ⟨hl, h, hf, hn⟩ | h | ⟨rfl, h1, rfl⟩ | ⟨rfl, h1, rfl⟩ | ⟨rfl, h1, rfl⟩
  · exact .inl h.inYear
  · obtain ⟨l, hl', hy, h1, h2, h3, h4, h5, h6, h7, h8, h9⟩ := dayNum_fixed y
    have key : ∀ o, h = yearStart y + o → 1 ≤ o → o < 364 + l → InYear y x := by
      intro o ho h1 h2
      unfold InYear
      rcases hn with ⟨_, hn⟩ | ⟨_, hn⟩ <;> omega
    rcases hf with ⟨hd, hf⟩ | ⟨_, hf⟩ | ⟨_, hf⟩ | ⟨_, hf⟩
    · rw [h1] at hf
      subst hf
      rcases hn with ⟨hw, hn⟩ | ⟨_, hn⟩
      · exact .inr (.inl ⟨hl, hd, hn, hw⟩)
      · left; unfold InYear; omega
    · exact .inl (key (184 + l) (by omega) (by omega) (by omega))
    · exact .inl (key (314 + l) (by omega) (by omega) (by omega))
    · exact .inl (key (358 + l) (by omega) (by omega) (by omega))
  · exact .inl h.inYear
  · exact .inr (.inr ⟨rfl, h1, rfl⟩)
  · left; unfold InYear; decide
  · left; unfold InYear; decide

/-- The changes of the Russian calendar. -/
def ruChange (eve D : Int) : Option Int :=
  ((ruTable eve).find? (fun r => decide (dayNum r.1 r.2.1 r.2.2.1 = D))).map (fun r => r.2.2.2)

set_option maxRecDepth 100000 in
theorem ruTable_dates (eve : Int) : (ruTable eve).map (fun r => dayNum r.1 r.2.1 r.2.2.1) = (ruTable 0).map (fun r => dayNum r.1 r.2.1 r.2.2.1) := by
  unfold ruTable; simp only [List.map_cons, List.map_nil]

set_option maxRecDepth 100000 in
theorem ruTable_distinct (eve : Int) : ((ruTable eve).map (fun r => dayNum r.1 r.2.1 r.2.2.1)).Nodup := by
  rw [ruTable_dates]
  have h : ((ruTable 0).map (fun r => dayNum r.1 r.2.1 r.2.2.1)).Pairwise (· < ·) := by decide +kernel
  exact h.imp (fun h => by omega)

theorem ruChanges_get? (eve D : Int) : (ruChanges eve).get? (D * nsDay) = ruChange eve D := by
  unfold ruChanges
  have hd : Dict.Distinct ((ruTable eve).map (fun r => (date r.1 r.2.1 r.2.2.1, r.2.2.2))) := by
    unfold Dict.Distinct
    rw [List.map_map]
    have := ruTable_distinct eve
    rw [List.Nodup, List.pairwise_map] at this ⊢
    exact this.imp (fun h1 h2 => h1 (nsDay_mul_inj h2))
  rw [Dict.get?_update_distinct _ hd, Dict.get?_nil, Option.or_none]
  unfold Dict.get? ruChange
  rw [List.find?_map, Option.map_map]
  congr 1
  congr 1
  funext r
  simp only [Function.comp, decide_eq_decide]
  exact ⟨fun h => nsDay_mul_inj h, fun h => by rw [← h]; rfl⟩

theorem ruChanges_aligned (eve : Int) (t : Time) (v : Int) (h : (ruChanges eve).get? t = some v) : ∃ x, t = x * nsDay := by
  unfold ruChanges at h
  rw [Dict.get?_update, Dict.get?_nil, Option.or_none] at h
  unfold Dict.get? at h
  rw [Option.map_eq_some_iff] at h
  obtain ⟨p, hp, _⟩ := h
  have h1 := List.mem_of_find?_eq_some hp
  have h2 := List.find?_some hp
  rw [List.mem_reverse, List.mem_map] at h1
  obtain ⟨r, _, rfl⟩ := h1
  simp only [decide_eq_true_eq] at h2
  exact ⟨dayNum r.1 r.2.1 r.2.2.1, h2.symm⟩

theorem ruHolidays_exactly (a b : Int) (w : Bool) :
    (ruHolidays a b w).Exactly 0 (fun t => ∃ x, t = x * nsDay ∧ ∃ y, a ≤ y ∧ y ≤ b ∧ RUHoliday w y x) := by
  unfold ruHolidays
  simp only
  have e : ∀ days : List (Int × Int), fixedDates days (yearRange a b) (0 : Int) =
      (days.flatMap (fun d => (yearRange a b).map (fun y => date y d.1 d.2))).map (fun t => (t, (0 : Int))) := by
    intro days
    unfold fixedDates
    rw [List.map_flatMap]
    congr 1
    funext d
    rw [List.map_map]; rfl
  rw [e]
  refine (Dict.Exactly.const _ _).congr ?_
  intro t
  simp only [List.mem_flatMap, List.mem_map, mem_yearRange]
  constructor
  · rintro ⟨⟨m, d⟩, hm, y, ⟨h1, h2⟩, rfl⟩
    refine ⟨dayNum y m d, rfl, y, h1, h2, ?_⟩
    have hk : ∀ k, 1 ≤ k → k ≤ 7 → RUHoliday w y (dayNum y 1 k) := fun k k1 k2 => .inl ⟨k, k1, k2, rfl⟩
    unfold RUHoliday at hk ⊢
    cases w <;> simp only [List.mem_append, List.mem_cons, Prod.mk.injEq, List.not_mem_nil, or_false, if_true, Bool.false_eq_true, if_false] at hm
    · rcases hm with (⟨rfl, rfl⟩ | ⟨rfl, rfl⟩ | ⟨rfl, rfl⟩ | ⟨rfl, rfl⟩ | ⟨rfl, rfl⟩ | ⟨rfl, rfl⟩ | ⟨rfl, rfl⟩ | ⟨rfl, rfl⟩ | ⟨rfl, rfl⟩ | ⟨rfl, rfl⟩ |
        ⟨rfl, rfl⟩ | ⟨rfl, rfl⟩ | ⟨rfl, rfl⟩) | ⟨rfl, rfl⟩
      all_goals first
        | exact hk _ (by decide) (by decide)
        | simp
    · rcases hm with ⟨rfl, rfl⟩ | ⟨rfl, rfl⟩ | ⟨rfl, rfl⟩ | ⟨rfl, rfl⟩ | ⟨rfl, rfl⟩ | ⟨rfl, rfl⟩ | ⟨rfl, rfl⟩ | ⟨rfl, rfl⟩ | ⟨rfl, rfl⟩ | ⟨rfl, rfl⟩ |
        ⟨rfl, rfl⟩ | ⟨rfl, rfl⟩ | ⟨rfl, rfl⟩
      all_goals first
        | exact hk _ (by decide) (by decide)
        | simp
  · rintro ⟨x, rfl, y, h1, h2, h⟩
    rcases h with ⟨k, k1, k2, rfl⟩ | rfl | rfl | rfl | rfl | rfl | rfl | ⟨rfl, rfl⟩
    · refine ⟨(1, k), ?_, y, ⟨h1, h2⟩, rfl⟩
      have : k = 1 ∨ k = 2 ∨ k = 3 ∨ k = 4 ∨ k = 5 ∨ k = 6 ∨ k = 7 := by omega
      rcases this with rfl | rfl | rfl | rfl | rfl | rfl | rfl <;> simp
    · exact ⟨(2, 23), by simp, y, ⟨h1, h2⟩, rfl⟩
    · exact ⟨(3, 8), by simp, y, ⟨h1, h2⟩, rfl⟩
    · exact ⟨(5, 1), by simp, y, ⟨h1, h2⟩, rfl⟩
    · exact ⟨(5, 9), by simp, y, ⟨h1, h2⟩, rfl⟩
    · exact ⟨(6, 12), by simp, y, ⟨h1, h2⟩, rfl⟩
    · exact ⟨(11, 4), by simp, y, ⟨h1, h2⟩, rfl⟩
    · exact ⟨(12, 31), by simp, y, ⟨h1, h2⟩, rfl⟩

/-- RU: the table. -/
theorem ru_labels (eve a b : Int) (w : Bool) {d : Dict DKey Int} (e : d = tsKeys ((ruChanges eve).update (ruHolidays a b w))) :
    d.Distinct ∧ d.Aligned ∧ (∀ t, d.get? (.str t) = none) ∧
      (∀ D, (∃ y, a ≤ y ∧ y ≤ b ∧ RUHoliday w y D) → d.dayLabel D = some 0) ∧
      (∀ D, ¬ (∃ y, a ≤ y ∧ y ≤ b ∧ RUHoliday w y D) → d.dayLabel D = ruChange eve D) := by
  subst e
  have he := ruHolidays_exactly a b w
  have hc : (ruChanges eve).Distinct := Dict.Distinct.nil.update _
  have hg : ∀ t, ((ruChanges eve).update (ruHolidays a b w)).get? t = ((ruHolidays a b w).get? t).or ((ruChanges eve).get? t) :=
    fun t => Dict.get?_update_distinct _ he.1 t
  refine ⟨tsKeys_distinct (hc.update _), tsKeys_aligned _ ?_, fun t => tsKeys_get?_str _ t, ?_, ?_⟩
  · intro t v h
    rw [hg] at h
    cases e : (ruHolidays a b w).get? t with
    | some u =>
      obtain ⟨_, x, hx, _⟩ := (he.2 t u).1 e
      exact ⟨x, hx⟩
    | none =>
      rw [e, Option.none_or] at h
      exact ruChanges_aligned eve t v h
  · intro D hD
    unfold Dict.dayLabel
    rw [tsKeys_get?, hg, (he.2 (D * nsDay) 0).2 ⟨rfl, D, rfl, hD⟩]; rfl
  · intro D hD
    unfold Dict.dayLabel
    rw [tsKeys_get?, tsKeys_get?_str, hg, Option.or_none, ruChanges_get?]
    cases e : (ruHolidays a b w).get? (D * nsDay) with
    | some u =>
      obtain ⟨_, x, hx, h⟩ := (he.2 _ u).1 e
      cases nsDay_mul_inj hx
      exact absurd h hD
    | none => rfl

/-- The calendars of the package with any of their options. -/
inductive Preconfigured : Calendar → Prop where
  | us (dno : List String) (lw : Bool) : Preconfigured (usCalendar dno lw)
  | uk (country : String) (dno : List String) (lw : Bool) : Preconfigured (ukCalendar country dno lw)
  | ru (workOnDec31 shortEves : Bool) : Preconfigured (ruCalendar workOnDec31 shortEves)

theorem Preconfigured.good {c : Calendar} (h : Preconfigured c) : c.Good := by
  cases h with
  | us dno lw =>
    refine ⟨show (usCalendar).start ≤ (usCalendar).stop by decide, fun a b => ?_⟩
    obtain ⟨d, e, h, _⟩ := us_daysOff dno lw a b
    exact ⟨d, e, h.1, h.2.1, h.2.2.1⟩
  | uk country dno lw =>
    refine ⟨show (ukCalendar).start ≤ (ukCalendar).stop by decide, fun a b => ?_⟩
    obtain ⟨d, e, h, _⟩ := uk_daysOff country dno lw a b
    exact ⟨d, e, h.1, h.2.1, h.2.2.1⟩
  | ru w s =>
    refine ⟨show (ruCalendar).start ≤ (ruCalendar).stop by decide, fun a b => ?_⟩
    obtain ⟨h1, h2, h3, _⟩ := ru_labels (if s then 7 else 8) a b w rfl
    exact ⟨_, rfl, h1, h2, fun t => .inr (h3 t)⟩

/-- Whether the timeboard of a calendar can be built and what it is. -/
theorem Calendar.Good.new {c : Calendar} (hc : c.Good) {cs ce : Option Time} (hs : c.Supports cs ce) (custom : Option (List (Time × Int)))
    (heap : Heap Int) :
    ∃ d, c.builtin (yearOf (dayOf (cs.getD c.start))) (yearOf (dayOf (ce.getD c.stop))) = .ok d ∧
      (dayOf (ce.getD c.stop) < dayOf (cs.getD c.start) → c.new cs ce false false custom heap = .error .voidInterval) ∧
      (dayOf (cs.getD c.start) ≤ dayOf (ce.getD c.stop) →
        ((∃ x ∈ custom.getD [], dayOf (cs.getD c.start) ≤ dayOf x.1 ∧ dayOf x.1 ≤ dayOf (ce.getD c.stop) ∧ d.get? (.str (dayOf x.1 * nsDay)) ≠ none) →
          c.new cs ce false false custom heap = .error .keyError) ∧
        ((∀ x ∈ custom.getD [], dayOf (cs.getD c.start) ≤ dayOf x.1 → dayOf x.1 ≤ dayOf (ce.getD c.stop) → d.get? (.str (dayOf x.1 * nsDay)) = none) →
          ∃ tb, c.new cs ce false false custom heap = .ok tb ∧
            ∀ (t : Time) (sch : Option (Schedule Int)), dayOf (cs.getD c.start) ≤ dayOf t → dayOf t ≤ dayOf (ce.getD c.stop) →
              ∃ w, tb.getWorkshift t sch = .ok w ∧
                w.label = ((lastOf (custom.getD []) (dayOf t)).or (d.dayLabel (dayOf t))).getD (weekLabel (dayOf t)))) := by
  obtain ⟨h1, h2⟩ := hc
  obtain ⟨d, hd, hdis, hal, hcl⟩ := h2 (yearOf (dayOf (cs.getD c.start))) (yearOf (dayOf (ce.getD c.stop)))
  refine ⟨d, hd, ?_⟩
  rw [Calendar.new_eq h1 hs false false custom heap hd]
  have hdis' := Dict.withCustom_distinct hdis custom
  have hal' := Dict.withCustom_aligned hal custom
  have hitems : Calendar.items custom false false d = (d.withCustom custom).map (fun x => (x.1.time, x.2)) := rfl
  rw [hitems]
  obtain ⟨b1, b2, b3⟩ := Calendar.board_exists (cs.getD c.start) (ce.getD c.stop) ((d.withCustom custom).map (fun x => (x.1.time, x.2))) heap
  rw [Dict.sameDay hdis' hal'] at b2 b3
  simp only [Dict.withCustom_ts, Dict.withCustom_str] at b2 b3
  have hlast : ∀ D, lastOf (custom.getD []) D ≠ none ↔ ∃ x ∈ custom.getD [], dayOf x.1 = D := by
    intro D
    unfold lastOf
    rw [Ne, Option.map_eq_none_iff, List.find?_eq_none]
    simp only [List.mem_reverse, decide_eq_true_eq]
    constructor
    · intro h
      exact Classical.byContradiction fun h' => h (fun x hx hD => h' ⟨x, hx, hD⟩)
    · rintro ⟨x, hx, hD⟩ h
      exact h x hx hD
  refine ⟨fun h => by rw [b1 h]; rfl, fun hle => ⟨?_, ?_⟩⟩
  · rintro ⟨x, hx, hx1, hx2, hx3⟩
    rw [b2 hle ⟨dayOf x.1, hx1, hx2, ?_, hx3⟩]
    · rfl
    · have := (hlast (dayOf x.1)).2 ⟨x, hx, rfl⟩
      intro h
      rw [Option.or_eq_none_iff] at h
      exact this h.1
  · intro hn
    obtain ⟨tb, ht⟩ := b3 hle (by
      rintro ⟨D, hD1, hD2, hD3, hD4⟩
      rcases hcl (D * nsDay) with h | h
      · rw [h, Option.or_none] at hD3
        obtain ⟨x, hx, rfl⟩ := (hlast D).1 hD3
        exact hD4 (hn x hx hD1 hD2)
      · exact hD4 h)
    refine ⟨tb, by rw [ht]; rfl, ?_⟩
    intro t sch t1 t2
    obtain ⟨w, w1, _, _, _, _, w2, w3⟩ := (Calendar.board ht).2.2.2 t sch t1 t2
    refine ⟨w, w1, ?_⟩
    rw [Dict.dayLabel_items hdis' hal' w2 w3]
    unfold Dict.dayLabel
    rw [Dict.withCustom_ts, Dict.withCustom_str, Option.or_assoc]

end TB
