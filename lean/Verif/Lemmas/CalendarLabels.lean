import Verif.Lemmas.HolidayYears
import Verif.Lemmas.Calendars
import Verif.Lemmas.When
/-! Labels of the preconfigured calendars. -/
namespace TB

/-- The last item of a dictionary for the day `D` (the order of items is the order of the dictionary). -/
def lastOf (cs : List (Time × Int)) (D : Int) : Option Int := (cs.reverse.find? (fun x => decide (dayOf x.1 = D))).map Prod.snd

theorem dayStart_eq_iff (t D : Int) : dayStart t = D * nsDay ↔ dayOf t = D := by
  unfold dayStart
  constructor
  · exact nsDay_mul_inj
  · rintro rfl; rfl

/-- Custom amendments as the calendar keeps them. -/
theorem custom_get? (cs : List (Time × Int)) (D : Int) :
    (Dict.update [] (cs.map (fun x => (dayStart x.1, x.2)))).get? (D * nsDay) = lastOf cs D := by
  rw [Dict.get?_update, Dict.get?_nil, Option.or_none]
  unfold lastOf Dict.get?
  rw [← List.map_reverse, List.find?_map]
  have : ((fun x : Time × Int => decide (x.1 = D * nsDay)) ∘ fun x : Time × Int => (dayStart x.1, x.2)) = fun x => decide (dayOf x.1 = D) := by
    funext x
    simp only [Function.comp, dayStart_eq_iff]
  rw [this]
  cases List.find? (fun x => decide (dayOf x.1 = D)) cs.reverse <;> rfl

theorem custom_aligned (cs : List (Time × Int)) (t : Time) (v : Int)
    (h : (Dict.update [] (cs.map (fun x => (dayStart x.1, x.2)))).get? t = some v) : ∃ x, t = x * nsDay := by
  rw [Dict.get?_update, Dict.get?_nil, Option.or_none] at h
  unfold Dict.get? at h
  rw [Option.map_eq_some_iff] at h
  obtain ⟨p, hp, _⟩ := h
  have h1 := List.mem_of_find?_eq_some hp
  have h2 := List.find?_some hp
  rw [List.mem_reverse, List.mem_map] at h1
  obtain ⟨x, _, rfl⟩ := h1
  simp only [decide_eq_true_eq] at h2
  exact ⟨dayOf x.1, h2.symm⟩

/-- The keys are days. -/
def Dict.Aligned (d : Dict DKey Int) : Prop := ∀ k v, d.get? k = some v → ∃ x, k.time = x * nsDay

/-- The label which the dictionary gives to a day. -/
def Dict.dayLabel (d : Dict DKey Int) (D : Int) : Option Int := (d.get? (.ts (D * nsDay))).or (d.get? (.str (D * nsDay)))

/-- No day is twice in the dictionary. -/
def Dict.Clear (d : Dict DKey Int) : Prop := ∀ t, d.get? (.ts t) = none ∨ d.get? (.str t) = none

/-- What the table of the built-in amendments of a calendar is like. -/
def Calendar.Good (c : Calendar) : Prop := c.start ≤ c.stop ∧ ∀ a b, ∃ d, c.builtin a b = .ok d ∧ d.Distinct ∧ d.Aligned ∧ d.Clear

theorem Dict.mem_items {d : Dict DKey Int} (hd : d.Distinct) (p : Time × Int) :
    p ∈ d.map (fun x => (x.1.time, x.2)) ↔ d.get? (.ts p.1) = some p.2 ∨ d.get? (.str p.1) = some p.2 := by
  rw [List.mem_map]
  constructor
  · rintro ⟨⟨k, v⟩, h, rfl⟩
    rw [Dict.mem_iff hd] at h
    cases k with
    | ts t => exact .inl h
    | str t => exact .inr h
  · rintro (h | h)
    · exact ⟨(.ts p.1, p.2), (Dict.mem_iff hd _ _).2 h, rfl⟩
    · exact ⟨(.str p.1, p.2), (Dict.mem_iff hd _ _).2 h, rfl⟩

theorem Dict.sameDay {d : Dict DKey Int} (hd : d.Distinct) (ha : d.Aligned) (a b : Int) :
    SameDay a b (d.map (fun x => (x.1.time, x.2))) ↔
      ∃ x, a ≤ x ∧ x ≤ b ∧ d.get? (.ts (x * nsDay)) ≠ none ∧ d.get? (.str (x * nsDay)) ≠ none := by
  constructor
  · rintro ⟨i, j, p, q, hij, hp, hq, hpq, h1, h2⟩
    rw [List.getElem?_map, Option.map_eq_some_iff] at hp hq
    obtain ⟨p', hp', rfl⟩ := hp
    obtain ⟨q', hq', rfl⟩ := hq
    have mp : (p'.1, p'.2) ∈ d := List.mem_of_getElem? hp'
    have mq : (q'.1, q'.2) ∈ d := List.mem_of_getElem? hq'
    rw [Dict.mem_iff hd] at mp mq
    obtain ⟨x, hx⟩ := ha _ _ mp
    obtain ⟨y, hy⟩ := ha _ _ mq
    have hne : p'.1 ≠ q'.1 := by
      intro he
      have hi : i < d.length := (List.getElem?_eq_some_iff.1 hp').1
      have hj : j < d.length := (List.getElem?_eq_some_iff.1 hq').1
      have := (List.pairwise_iff_getElem.1 hd) i j (by simpa using hi) (by simpa using hj) hij
      rw [List.getElem_map, List.getElem_map, (List.getElem?_eq_some_iff.1 hp').2, (List.getElem?_eq_some_iff.1 hq').2] at this
      exact this he
    have hxy : x = y := by
      simp only [hx, hy, dayOf_mul] at hpq; exact hpq
    subst hxy
    simp only [hx, dayOf_mul] at h1 h2
    refine ⟨x, h1, h2, ?_⟩
    rcases p' with ⟨k, v⟩
    rcases q' with ⟨k', v'⟩
    cases k <;> cases k' <;> simp only [DKey.time] at hx hy <;> subst hx <;> subst hy
    · exact absurd rfl hne
    · simp only at mp mq; rw [mp, mq]; simp
    · simp only at mp mq; rw [mp, mq]; simp
    · exact absurd rfl hne
  · rintro ⟨x, h1, h2, h3, h4⟩
    obtain ⟨v, hv⟩ := Option.ne_none_iff_exists'.1 h3
    obtain ⟨w, hw⟩ := Option.ne_none_iff_exists'.1 h4
    rw [← Dict.mem_iff hd] at hv hw
    obtain ⟨i, hi⟩ := List.mem_iff_getElem?.1 hv
    obtain ⟨j, hj⟩ := List.mem_iff_getElem?.1 hw
    have hij : i ≠ j := by
      rintro rfl
      rw [hi] at hj; simp at hj
    rcases Nat.lt_or_gt_of_ne hij with h | h
    · exact ⟨i, j, (x * nsDay, v), (x * nsDay, w), h, by rw [List.getElem?_map, hi]; rfl, by rw [List.getElem?_map, hj]; rfl, rfl,
        by rw [dayOf_mul]; exact h1, by rw [dayOf_mul]; exact h2⟩
    · exact ⟨j, i, (x * nsDay, w), (x * nsDay, v), h, by rw [List.getElem?_map, hj]; rfl, by rw [List.getElem?_map, hi]; rfl, rfl,
        by rw [dayOf_mul]; exact h1, by rw [dayOf_mul]; exact h2⟩

/-- Labels as read from the dictionary. -/
theorem Dict.dayLabel_items {d : Dict DKey Int} (hd : d.Distinct) (ha : d.Aligned) {D l w0 : Int}
    (h1 : ∀ x ∈ d.map (fun x => (x.1.time, x.2)), dayOf x.1 = D → l = x.2)
    (h2 : (∀ x ∈ d.map (fun x => (x.1.time, x.2)), dayOf x.1 ≠ D) → l = w0) : l = (d.dayLabel D).getD w0 := by
  unfold Dict.dayLabel
  cases e : d.get? (.ts (D * nsDay)) with
  | some v => exact h1 (D * nsDay, v) ((Dict.mem_items hd _).2 (.inl e)) (dayOf_mul D)
  | none =>
    cases e' : d.get? (.str (D * nsDay)) with
    | some v => exact h1 (D * nsDay, v) ((Dict.mem_items hd _).2 (.inr e')) (dayOf_mul D)
    | none =>
      refine h2 ?_
      intro x hx hD
      rcases (Dict.mem_items hd _).1 hx with h | h
      · obtain ⟨y, hy⟩ := ha _ _ h
        simp only [DKey.time] at hy
        rw [hy, dayOf_mul] at hD
        rw [hy, hD, e] at h; simp at h
      · obtain ⟨y, hy⟩ := ha _ _ h
        simp only [DKey.time] at hy
        rw [hy, dayOf_mul] at hD
        rw [hy, hD, e'] at h; simp at h

/-- The dictionary with custom amendments. -/
def Dict.withCustom (d : Dict DKey Int) : Option (List (Time × Int)) → Dict DKey Int
  | none => d
  | some cs => d.update (tsKeys (Dict.update [] (cs.map (fun x => (dayStart x.1, x.2)))))

theorem tsKeys_aligned (d : Dict Time Int) (h : ∀ t v, d.get? t = some v → ∃ x, t = x * nsDay) : (tsKeys d).Aligned := by
  intro k v hk
  cases k with
  | ts t => rw [tsKeys_get?] at hk; exact h t v hk
  | str t => rw [tsKeys_get?_str] at hk; simp at hk

theorem Dict.withCustom_distinct {d : Dict DKey Int} (hd : d.Distinct) (custom : Option (List (Time × Int))) : (d.withCustom custom).Distinct := by
  cases custom with
  | none => exact hd
  | some cs => exact hd.update _

theorem Dict.withCustom_ts {d : Dict DKey Int} (custom : Option (List (Time × Int))) (D : Int) :
    (d.withCustom custom).get? (.ts (D * nsDay)) = (lastOf (custom.getD []) D).or (d.get? (.ts (D * nsDay))) := by
  cases custom with
  | none => rfl
  | some cs =>
    unfold Dict.withCustom
    simp only [Option.getD_some]
    rw [Dict.get?_update_distinct _ (tsKeys_distinct (Dict.Distinct.nil.update _)), tsKeys_get?, custom_get?]

theorem Dict.withCustom_str {d : Dict DKey Int} (custom : Option (List (Time × Int))) (t : Time) :
    (d.withCustom custom).get? (.str t) = d.get? (.str t) := by
  cases custom with
  | none => rfl
  | some cs =>
    unfold Dict.withCustom
    simp only
    rw [Dict.get?_update_distinct _ (tsKeys_distinct (Dict.Distinct.nil.update _)), tsKeys_get?_str, Option.none_or]

theorem Dict.withCustom_aligned {d : Dict DKey Int} (ha : d.Aligned) (custom : Option (List (Time × Int))) : (d.withCustom custom).Aligned := by
  cases custom with
  | none => exact ha
  | some cs =>
    intro k v hk
    unfold Dict.withCustom at hk
    simp only at hk
    rw [Dict.get?_update_distinct _ (tsKeys_distinct (Dict.Distinct.nil.update _))] at hk
    cases e : (tsKeys (Dict.update [] (cs.map (fun x => (dayStart x.1, x.2))))).get? k with
    | some u => exact tsKeys_aligned _ (custom_aligned cs) k u e
    | none => rw [e, Option.none_or] at hk; exact ha k v hk

/-- Arguments within the supported range. -/
def Calendar.Supports (c : Calendar) (cs ce : Option Time) : Prop := ∀ t, cs = some t ∨ ce = some t → c.start ≤ t ∧ t ≤ c.stop

theorem Calendar.getBounds_ok {c : Calendar} {cs ce : Option Time} (h : c.Supports cs ce) :
    c.getBounds cs ce = .ok (cs.getD c.start, ce.getD c.stop) := by
  unfold Calendar.getBounds Calendar.checkTime
  cases cs with
  | none =>
    cases ce with
    | none => rfl
    | some e =>
      have := h e (.inr rfl)
      simp [this]; rfl
  | some s =>
    have h1 := h s (.inl rfl)
    cases ce with
    | none => simp [h1]; rfl
    | some e =>
      have := h e (.inr rfl)
      simp [this, h1]; rfl

theorem Calendar.getBounds_error {c : Calendar} {cs ce : Option Time} (h : ¬ c.Supports cs ce) :
    c.getBounds cs ce = .error .outOfBounds := by
  unfold Calendar.getBounds Calendar.checkTime
  unfold Calendar.Supports at h
  cases cs with
  | none =>
    cases ce with
    | none => simp at h
    | some e =>
      have : ¬ (c.start ≤ e ∧ e ≤ c.stop) := fun h' => h (by rintro t (ht | ht) <;> cases ht; exact h')
      simp only [this, if_false]; rfl
  | some s =>
    by_cases hs : c.start ≤ s ∧ s ≤ c.stop
    · cases ce with
      | none => exact absurd (by rintro t (ht | ht) <;> cases ht; exact hs) h
      | some e =>
        have : ¬ (c.start ≤ e ∧ e ≤ c.stop) := fun h' => h (by rintro t (ht | ht) <;> cases ht <;> assumption)
        simp only [this, hs, if_false, and_self, if_true]; rfl
    · simp only [hs, if_false]; rfl

theorem Calendar.amendments_eq {c : Calendar} {cs ce : Option Time} (h : c.Supports cs ce) (custom : Option (List (Time × Int))) {d : Dict DKey Int}
    (hd : c.builtin (yearOf (dayOf (cs.getD c.start))) (yearOf (dayOf (ce.getD c.stop))) = .ok d) :
    c.amendments cs ce custom = .ok (d.withCustom custom) := by
  unfold Calendar.amendments
  rw [Calendar.getBounds_ok h]
  simp only [Bind.bind, Except.bind, hd]
  cases custom <;> rfl

theorem Calendar.supports_bounds {c : Calendar} (hc : c.start ≤ c.stop) {cs ce : Option Time} (h : c.Supports cs ce) :
    c.Supports (some (cs.getD c.start)) (some (ce.getD c.stop)) := by
  rintro t (ht | ht)
  · cases cs with
    | none => simp at ht; subst ht; exact ⟨Int.le_refl _, hc⟩
    | some s => simp at ht; subst ht; exact h _ (.inl rfl)
  · cases ce with
    | none => simp at ht; subst ht; exact ⟨hc, Int.le_refl _⟩
    | some s => simp at ht; subst ht; exact h _ (.inr rfl)

/-- The amendments which the timeboard gets. -/
def Calendar.items (custom : Option (List (Time × Int))) (doNotAmend onlyCustom : Bool) (d : Dict DKey Int) : List (Time × Int) :=
  if doNotAmend then [] else if onlyCustom then custom.getD [] else (d.withCustom custom).map (fun x => (x.1.time, x.2))

theorem Calendar.new_eq {c : Calendar} (hc : c.start ≤ c.stop) {cs ce : Option Time} (h : c.Supports cs ce) (dna oc : Bool)
    (custom : Option (List (Time × Int))) (heap : Heap Int) {d : Dict DKey Int}
    (hd : c.builtin (yearOf (dayOf (cs.getD c.start))) (yearOf (dayOf (ce.getD c.stop))) = .ok d) :
    c.new cs ce dna oc custom heap =
      (Timeboard.new (Calendar.args (cs.getD c.start) (ce.getD c.stop) (Calendar.items custom dna oc d)) heap).map Prod.fst := by
  unfold Calendar.new Calendar.items
  rw [Calendar.getBounds_ok h]
  simp only [Bind.bind, Except.bind]
  have e := Calendar.amendments_eq (Calendar.supports_bounds hc h) custom hd
  cases dna <;> cases oc
  · simp only [e]
    simp only [Bool.false_eq_true, if_false, pure, Except.pure]
    generalize Timeboard.new _ heap = r
    cases r <;> rfl
  all_goals
    simp only [Bool.false_eq_true, if_false, if_true, pure, Except.pure]
    generalize Timeboard.new _ heap = r
    cases r <;> rfl

end TB
