import Verif.Lemmas.Fixed
import Verif.Props.Holidays
/-! The dictionaries of holidays. -/
namespace TB

section
variable {K V : Type} [DecidableEq K]

/-- The dictionary has the given keys, all with one label. -/
def Dict.Exactly (d : Dict K V) (label : V) (P : K → Prop) : Prop :=
  d.Distinct ∧ ∀ k v, d.get? k = some v ↔ v = label ∧ P k

theorem Dict.Exactly.congr {d : Dict K V} {label : V} {P Q : K → Prop} (h : d.Exactly label P) (hpq : ∀ k, P k ↔ Q k) : d.Exactly label Q :=
  ⟨h.1, fun k v => by rw [h.2, hpq]⟩

theorem Dict.Exactly.mem {d : Dict K V} {label : V} {P : K → Prop} (h : d.Exactly label P) (k : K) (v : V) : (k, v) ∈ d ↔ v = label ∧ P k := by
  rw [Dict.mem_iff h.1, h.2]

theorem Dict.Exactly.of_mem {d : Dict K V} {label : V} {P : K → Prop} (hd : d.Distinct) (h : ∀ k v, (k, v) ∈ d ↔ v = label ∧ P k) : d.Exactly label P :=
  ⟨hd, fun k v => by rw [← Dict.mem_iff hd, h]⟩

theorem Dict.Exactly.set {d : Dict K V} {label : V} {P : K → Prop} (h : d.Exactly label P) (a : K) :
    (Dict.set d a label).Exactly label (fun k => P k ∨ k = a) := by
  refine ⟨h.1.set _ _, fun k v => ?_⟩
  rw [Dict.get?_set]
  by_cases hk : k = a
  · simp only [hk, ↓reduceIte, or_true, and_true, Option.some.injEq]; exact eq_comm
  · simp only [hk, ↓reduceIte, or_false]; exact h.2 k v

theorem Dict.Exactly.erase {d : Dict K V} {label : V} {P : K → Prop} (h : d.Exactly label P) (a : K) :
    (Dict.erase d a).Exactly label (fun k => P k ∧ k ≠ a) := by
  refine ⟨h.1.erase _, fun k v => ?_⟩
  rw [Dict.get?_erase]
  by_cases hk : k = a
  · simp [hk]
  · simp only [hk, ↓reduceIte, ne_eq, not_false_eq_true, and_true]; exact h.2 k v

theorem Dict.Exactly.update {d e : Dict K V} {label : V} {P Q : K → Prop} (h : d.Exactly label P) (h' : e.Exactly label Q) :
    (Dict.update d e).Exactly label (fun k => P k ∨ Q k) := by
  refine ⟨h.1.update _, fun k v => ?_⟩
  rw [Dict.get?_update_distinct _ h'.1]
  cases he : Dict.get? e k with
  | none =>
    rw [Option.none_or, h.2]
    have hq : ¬ Q k := fun hq => by
      have := (h'.2 k label).2 ⟨rfl, hq⟩
      rw [he] at this; cases this
    simp [hq]
  | some u =>
    have := (h'.2 k u).1 he
    rw [Option.some_or, Option.some.injEq, this.1]
    simp only [this.2, or_true, and_true]
    exact eq_comm

theorem Dict.Exactly.const (ks : List K) (label : V) : (Dict.update [] (ks.map (fun a => (a, label)))).Exactly label (fun k => k ∈ ks) := by
  refine ⟨Dict.Distinct.nil.update _, fun k v => ?_⟩
  rw [Dict.get?_update, ← List.map_reverse, Dict.get?_const, Dict.get?_nil, Option.or_none]
  simp only [List.mem_reverse, Option.ite_none_right_eq_some, Option.some.injEq]
  rw [and_comm, eq_comm (a := v)]

theorem Dict.Exactly.tsKeys {d : Dict Time V} {label : V} {P : Time → Prop} (h : d.Exactly label P) :
    (tsKeys d).Exactly label (fun k => ∃ t, k = .ts t ∧ P t) := by
  refine ⟨tsKeys_distinct h.1, fun k v => ?_⟩
  cases k with
  | str t => rw [tsKeys_get?_str]; simp
  | ts t => rw [tsKeys_get?, h.2]; simp

end

section
variable {V : Type}

/-- The loop over the years. -/
theorem years_loop {label : V} {step : Dict DKey V → Int → Except Err (Dict DKey V)} {Q : Int → DKey → Prop}
    (hg : ∀ (d : Dict DKey V) P y, d.Exactly label P → ∃ d', step d y = .ok d' ∧ d'.Exactly label (fun k => P k ∨ Q y k))
    (ys : List Int) {d : Dict DKey V} {P : DKey → Prop} (h : d.Exactly label P) :
    ∃ d', ys.foldlM step d = .ok d' ∧ d'.Exactly label (fun k => P k ∨ ∃ y ∈ ys, Q y k) := by
  induction ys generalizing d P with
  | nil => exact ⟨d, rfl, h.congr (by simp)⟩
  | cons y ys ih =>
    obtain ⟨f, e, hf⟩ := hg d P y h
    obtain ⟨d', e', hd'⟩ := ih hf
    refine ⟨d', ?_, hd'.congr ?_⟩
    · rw [List.foldlM_cons, e]; exact e'
    · intro k; simp [or_assoc]

theorem seek_exactly (y : Int) (seek : List SeekDate) (label : V) (hok : ∀ s ∈ seek, s.Ok) :
    ∃ f, nthWeekdays y seek label = .ok f ∧ f.Exactly label (fun t => ∃ s ∈ seek, s.Hits y t) := by
  obtain ⟨d, e, h1, h2⟩ := C48_nth_weekday_of_month y seek label false hok (Or.inl rfl)
  exact ⟨d, e, Dict.Exactly.of_mem h1 h2⟩

theorem mem_observed {A : Type} {dno : List String} {table : List (String × A)} {a : A} :
    a ∈ observed dno table ↔ ∃ name, name ∉ dno ∧ (name, a) ∈ table := by
  unfold observed
  simp only [List.mem_map, List.mem_filter]
  constructor
  · rintro ⟨⟨name, a'⟩, ⟨h1, h2⟩, rfl⟩
    exact ⟨name, by simpa using h2, h1⟩
  · rintro ⟨name, h1, h2⟩
    exact ⟨(name, a), ⟨h2, by simpa using h1⟩, rfl⟩

theorem observed_sublist {A : Type} (dno : List String) (table : List (String × A)) : (observed dno table).Sublist (table.map Prod.snd) :=
  List.filter_sublist.map _

/-! ### US -/

theorem us_dates (dno : List String) (a b x : Int) : OnDates (observed dno usFixed) a b x ↔ ∃ y, a ≤ y ∧ y ≤ b ∧ USFixed dno y x := by
  unfold OnDates USFixed
  simp only [mem_observed]
  constructor
  · rintro ⟨md, ⟨name, h1, h2⟩, y, h3, h4, rfl⟩
    refine ⟨y, h3, h4, ?_⟩
    simp only [usFixed, List.mem_cons, Prod.mk.injEq, List.not_mem_nil, or_false] at h2
    rcases h2 with ⟨rfl, rfl⟩ | ⟨rfl, rfl⟩ | ⟨rfl, rfl⟩ | ⟨rfl, rfl⟩ <;> simp [h1]
  · rintro ⟨y, h3, h4, h⟩
    rcases h with ⟨h, rfl⟩ | ⟨h, rfl⟩ | ⟨h, rfl⟩ | ⟨h, rfl⟩
    · exact ⟨(1, 1), ⟨_, h, by simp [usFixed]⟩, y, h3, h4, rfl⟩
    · exact ⟨(7, 4), ⟨_, h, by simp [usFixed]⟩, y, h3, h4, rfl⟩
    · exact ⟨(11, 11), ⟨_, h, by simp [usFixed]⟩, y, h3, h4, rfl⟩
    · exact ⟨(12, 25), ⟨_, h, by simp [usFixed]⟩, y, h3, h4, rfl⟩

theorem us_different (dno : List String) : DifferentDates (observed dno usFixed) := by
  have hs := observed_sublist dno usFixed
  refine ⟨hs.nodup (by decide), ?_⟩
  intro md h md' h' y y' e
  rcases us_pair (hs.subset h) (hs.subset h') y y' with h | h | h
  · exact h
  · omega
  · omega

theorem us_gap (dno : List String) (a b x x' : Int) (h : OnDates (observed dno usFixed) a b x) (h' : OnDates (observed dno usFixed) a b x')
    (hlt : x < x') : x + 6 ≤ x' := by
  have hs := observed_sublist dno usFixed
  obtain ⟨md, h1, y, _, _, rfl⟩ := h
  obtain ⟨md', h1', y', _, _, rfl⟩ := h'
  rcases us_pair (hs.subset h1) (hs.subset h1') y y' with ⟨rfl, rfl⟩ | h | h
  · omega
  · exact h
  · omega

/-- The fixed holidays with the nearest weekdays. -/
theorem us_fixed (dno : List String) (a b : Int) (label : V) (lw : Bool) :
    ∃ d, fixedHolidays (observed dno usFixed) (yearRange a b) label lw "nearest" = .ok d ∧
      d.Exactly label (fun k => ∃ x, k = (if lw then .ts (x * nsDay) else .str (x * nsDay)) ∧
        ∃ y, a ≤ y ∧ y ≤ b ∧ (USFixed dno y x ∨ (lw = true ∧ ∃ h, USFixed dno y h ∧ NearestWeekday h x))) := by
  cases lw with
  | true =>
    obtain ⟨d, e, h1, h2⟩ := fixed_extended (us_different dno) a b label (how := "nearest") (by simp) (R := NearestWeekday)
      (fun added hx hs hm => hx.nearest (given := OnDates (observed dno usFixed) a b)
        (fun x x' h h' hlt => by have := us_gap dno a b x x' h h' hlt; omega) [] (by simp) (by intro p hp; cases hp)
        (fun p hp => ((hm p.1).1 (List.mem_map_of_mem hp)).1) (hs.imp (fun h => by omega)))
      (fun h x => by unfold NearestWeekday; simp only [List.mem_cons, List.not_mem_nil, or_false]; omega)
      (fun h x y => by unfold NearestWeekday; omega)
    refine ⟨tsKeys d, ?_, (Dict.Exactly.of_mem h1 h2).tsKeys.congr ?_⟩
    · unfold fixedHolidays; rw [e]; rfl
    · intro k
      simp only [us_dates, ↓reduceIte, true_and]
      constructor
      · rintro ⟨t, rfl, x, rfl, ⟨y, h3, h4, h5⟩ | ⟨h, ⟨y, h3, h4, h5⟩, h6⟩⟩
        · exact ⟨x, rfl, y, h3, h4, Or.inl h5⟩
        · exact ⟨x, rfl, y, h3, h4, Or.inr ⟨h, h5, h6⟩⟩
      · rintro ⟨x, rfl, y, h3, h4, h5 | ⟨h, h5, h6⟩⟩
        · exact ⟨_, rfl, x, rfl, Or.inl ⟨y, h3, h4, h5⟩⟩
        · exact ⟨_, rfl, x, rfl, Or.inr ⟨h, ⟨y, h3, h4, h5⟩, h6⟩⟩
  | false =>
    refine ⟨_, rfl, ?_⟩
    have e : (fixedDates (observed dno usFixed) (yearRange a b) label).map (fun x => (DKey.str x.1, x.2)) =
        ((fixedDates (observed dno usFixed) (yearRange a b) label).map (fun x => DKey.str x.1)).map (fun k => (k, label)) := by
      rw [List.map_map]
      apply List.map_congr_left
      rintro ⟨t, v⟩ hx
      rw [(mem_fixedDates.1 hx).1]; rfl
    rw [e]
    refine (Dict.Exactly.const _ label).congr ?_
    intro k
    simp only [List.mem_map, Bool.false_eq_true, ↓reduceIte, false_and, or_false]
    constructor
    · rintro ⟨⟨t, v⟩, hx, rfl⟩
      obtain ⟨_, x, rfl, h⟩ := mem_fixedDates.1 hx
      exact ⟨x, rfl, (us_dates _ _ _ _).1 h⟩
    · rintro ⟨x, rfl, h⟩
      exact ⟨(x * nsDay, label), mem_fixedDates.2 ⟨rfl, x, rfl, (us_dates _ _ _ _).2 h⟩, rfl⟩

theorem us_floating (dno : List String) (y x : Int) :
    (∃ s ∈ observed dno usFloating, s.Hits y (x * nsDay)) ↔ USFloating dno y x := by
  have hits : ∀ (m w n sh : Int), SeekDate.Hits ⟨m, w, n, sh⟩ y (x * nsDay) ↔ IsNthWeekday (monthOfYear y m) (w - 1) n (x - sh) := by
    intro m w n sh
    unfold SeekDate.Hits SeekDate.monthNum monthOfYear
    constructor
    · rintro ⟨d, h, e⟩
      have := nsDay_mul_inj e
      rw [show x - sh = d by simp only at this; omega]; exact h
    · intro h; exact ⟨x - sh, h, by rw [show x - sh + sh = x by omega]⟩
  simp only [mem_observed]
  unfold USFloating usFloating
  simp only [List.mem_cons, List.not_mem_nil, or_false, Prod.mk.injEq]
  constructor
  · rintro ⟨s, ⟨name, h, h2⟩, h3⟩
    rcases h2 with ⟨rfl, rfl⟩ | ⟨rfl, rfl⟩ | ⟨rfl, rfl⟩ | ⟨rfl, rfl⟩ | ⟨rfl, rfl⟩ | ⟨rfl, rfl⟩ | ⟨rfl, rfl⟩ <;>
      (rw [hits] at h3; simp only [Int.sub_zero, Int.sub_self, show (4 : Int) - 1 = 3 by decide] at h3; simp only [h, h3, not_false_eq_true, and_self, true_or, or_true])
  · intro h
    rcases h with ⟨h, h2⟩ | ⟨h, h2⟩ | ⟨h, h2⟩ | ⟨h, h2⟩ | ⟨h, h2⟩ | ⟨h, h2⟩ | ⟨h, h2⟩
    · exact ⟨⟨1, 1, 3, 0⟩, ⟨_, h, by simp⟩, (hits _ _ _ _).2 (by simpa using h2)⟩
    · exact ⟨⟨2, 1, 3, 0⟩, ⟨_, h, by simp⟩, (hits _ _ _ _).2 (by simpa using h2)⟩
    · exact ⟨⟨5, 1, -1, 0⟩, ⟨_, h, by simp⟩, (hits _ _ _ _).2 (by simpa using h2)⟩
    · exact ⟨⟨9, 1, 1, 0⟩, ⟨_, h, by simp⟩, (hits _ _ _ _).2 (by simpa using h2)⟩
    · exact ⟨⟨10, 1, 2, 0⟩, ⟨_, h, by simp⟩, (hits _ _ _ _).2 (by simpa using h2)⟩
    · exact ⟨⟨11, 4, 4, 0⟩, ⟨_, h, by simp⟩, (hits _ _ _ _).2 (by simpa using h2)⟩
    · exact ⟨⟨11, 4, 4, 1⟩, ⟨_, h, by simp⟩, (hits _ _ _ _).2 (by simpa using h2)⟩

/-- One-off days as they are in the code. -/
def USOneOff (dno : List String) (a b x : Int) : Prop :=
  (a ≤ 2014 ∧ 2014 ≤ b ∧ "xmas_additional_day" ∉ dno ∧ x = dayNum 2018 12 26) ∨
  (a ≤ 2018 ∧ 2018 ≤ b ∧ "one_off" ∉ dno ∧ x = dayNum 2018 12 5) ∨
  (a ≤ 2018 ∧ 2018 ≤ b ∧ "xmas_additional_day" ∉ dno ∧ x = dayNum 2018 12 24)

theorem Dict.Exactly.setIf {K : Type} [DecidableEq K] {d : Dict K V} {label : V} {P : K → Prop} (h : d.Exactly label P) (c : Bool) (a : K) :
    (if c = true then Dict.set d a label else d).Exactly label (fun k => P k ∨ (c = true ∧ k = a)) := by
  cases c with
  | true => exact (h.set a).congr (by simp)
  | false => exact h.congr (by simp)

theorem us_oneOff {a b : Int} {dno : List String} {label : V} {d : Dict DKey V} {P : DKey → Prop} (h : d.Exactly label P) :
    (usOneOff (yearRange a b) dno label d).Exactly label (fun k => P k ∨ ∃ x, k = .ts (x * nsDay) ∧ USOneOff dno a b x) := by
  unfold usOneOff
  refine (((h.setIf _ _).setIf _ _).setIf _ _).congr ?_
  intro k
  simp only [Bool.and_eq_true, decide_eq_true_eq, mem_yearRange, Bool.not_eq_true', List.contains_eq_mem, decide_eq_false_iff_not, date, or_assoc]
  apply or_congr Iff.rfl
  unfold USOneOff
  constructor
  · rintro (⟨⟨h1, h2⟩, rfl⟩ | ⟨⟨h1, h2⟩, rfl⟩ | ⟨⟨h1, h2⟩, rfl⟩)
    · exact ⟨_, rfl, Or.inl ⟨h1.1, h1.2, h2, rfl⟩⟩
    · exact ⟨_, rfl, Or.inr (Or.inl ⟨h1.1, h1.2, h2, rfl⟩)⟩
    · exact ⟨_, rfl, Or.inr (Or.inr ⟨h1.1, h1.2, h2, rfl⟩)⟩
  · rintro ⟨x, rfl, ⟨h1, h2, h3, rfl⟩ | ⟨h1, h2, h3, rfl⟩ | ⟨h1, h2, h3, rfl⟩⟩
    · exact Or.inl ⟨⟨⟨h1, h2⟩, h3⟩, rfl⟩
    · exact Or.inr (Or.inl ⟨⟨⟨h1, h2⟩, h3⟩, rfl⟩)
    · exact Or.inr (Or.inr ⟨⟨⟨h1, h2⟩, h3⟩, rfl⟩)

/-- The keys of `fed_holidays`. -/
def USKey (dno : List String) (lw : Bool) (a b : Int) (k : DKey) : Prop :=
  (∃ x, k = (if lw then .ts (x * nsDay) else .str (x * nsDay)) ∧
    ∃ y, a ≤ y ∧ y ≤ b ∧ (USFixed dno y x ∨ (lw = true ∧ ∃ h, USFixed dno y h ∧ NearestWeekday h x))) ∨
  (∃ x, k = .ts (x * nsDay) ∧ ((∃ y, a ≤ y ∧ y ≤ b ∧ USFloating dno y x) ∨ USOneOff dno a b x))

theorem hits_day {s : SeekDate} {y : Int} {t : Time} (h : s.Hits y t) : ∃ x, t = x * nsDay := by
  obtain ⟨d, _, rfl⟩ := h; exact ⟨_, rfl⟩

theorem fedHolidays_exactly (dno : List String) (lw : Bool) (a b : Int) (label : V) :
    ∃ d, fedHolidays a b dno lw label = .ok d ∧ d.Exactly label (USKey dno lw a b) := by
  obtain ⟨d1, e1, h1⟩ := us_fixed dno a b label lw
  have hok : ∀ s ∈ observed dno usFloating, s.Ok := fun s hs => by
    have : ∀ s ∈ usFloating.map Prod.snd, s.Ok := by decide
    exact this s ((observed_sublist _ _).subset hs)
  obtain ⟨d2, e2, h2⟩ := years_loop (label := label) (Q := fun y k => ∃ x, k = .ts (x * nsDay) ∧ USFloating dno y x)
    (step := fun d y => do
      let f ← nthWeekdays y (observed dno usFloating) label
      return d.update (tsKeys f)) (by
    intro d P y hd
    obtain ⟨f, ef, hf⟩ := seek_exactly y (observed dno usFloating) label hok
    refine ⟨_, by rw [ef]; rfl, (hd.update hf.tsKeys).congr ?_⟩
    intro k
    apply or_congr Iff.rfl
    constructor
    · rintro ⟨t, rfl, s, hs, hh⟩
      obtain ⟨x, rfl⟩ := hits_day hh
      exact ⟨x, rfl, (us_floating dno y x).1 ⟨s, hs, hh⟩⟩
    · rintro ⟨x, rfl, h⟩
      exact ⟨_, rfl, (us_floating dno y x).2 h⟩) (yearRange a b) h1
  refine ⟨_, ?_, (us_oneOff (a := a) (b := b) (dno := dno) h2).congr ?_⟩
  · unfold fedHolidays
    simp only [e1, Bind.bind, Except.bind] at e2 ⊢
    rw [e2]; rfl
  · intro k
    unfold USKey
    simp only [mem_yearRange, or_assoc]
    apply or_congr Iff.rfl
    constructor
    · rintro (⟨y, ⟨h3, h4⟩, x, rfl, h5⟩ | ⟨x, rfl, h⟩)
      · exact ⟨x, rfl, Or.inl ⟨y, h3, h4, h5⟩⟩
      · exact ⟨x, rfl, Or.inr h⟩
    · rintro ⟨x, rfl, ⟨y, h3, h4, h5⟩ | h⟩
      · exact Or.inl ⟨y, ⟨h3, h4⟩, x, rfl, h5⟩
      · exact Or.inr ⟨x, rfl, h⟩

/-! ### UK -/

theorem not_mem_ukNotObserved (country : String) (dno : List String) (name : String) :
    name ∉ ukNotObserved country dno ↔ name ∉ dno ∧
      (country = "england" → name ∉ ["new_year2", "st_patricks", "orangemens", "st_andrews"]) ∧
      (country = "scotland" → name ∉ ["st_patricks", "orangemens", "easter_monday"]) ∧
      (country = "northern_ireland" → name ∉ ["new_year2", "st_andrews"]) := by
  unfold ukNotObserved
  simp only [List.mem_append, not_or, and_assoc]
  apply and_congr Iff.rfl
  apply and_congr
  · split <;> rename_i h <;> simp [h]
  · apply and_congr
    · split <;> rename_i h <;> simp [h]
    · split <;> rename_i h <;> simp [h]

theorem uk_dates (country : String) (dno : List String) (a b x : Int) :
    OnDates (observed (ukNotObserved country dno) ukFixed) a b x ↔ ∃ y, a ≤ y ∧ y ≤ b ∧ UKFixed country dno y x := by
  unfold OnDates UKFixed
  simp only [mem_observed, not_mem_ukNotObserved]
  constructor
  · rintro ⟨md, ⟨name, ⟨h1, h5, h6, h7⟩, h2⟩, y, h3, h4, rfl⟩
    refine ⟨y, h3, h4, ?_⟩
    simp only [ukFixed, List.mem_cons, Prod.mk.injEq, List.not_mem_nil, or_false] at h2
    rcases h2 with ⟨rfl, rfl⟩ | ⟨rfl, rfl⟩ | ⟨rfl, rfl⟩ | ⟨rfl, rfl⟩ | ⟨rfl, rfl⟩ | ⟨rfl, rfl⟩ | ⟨rfl, rfl⟩ <;> simp at h5 h6 h7 <;> simp [h1, h5, h6, h7]
  · rintro ⟨y, h3, h4, h⟩
    rcases h with ⟨h, rfl⟩ | ⟨h, h5, h6, rfl⟩ | ⟨h, h5, h6, rfl⟩ | ⟨h, h5, h6, rfl⟩ | ⟨h, h5, h6, rfl⟩ | ⟨h, rfl⟩ | ⟨h, rfl⟩
    · exact ⟨(1, 1), ⟨_, ⟨h, by simp⟩, by simp [ukFixed]⟩, y, h3, h4, rfl⟩
    · exact ⟨(1, 2), ⟨_, ⟨h, by simp [h5, h6]⟩, by simp [ukFixed]⟩, y, h3, h4, rfl⟩
    · exact ⟨(3, 17), ⟨_, ⟨h, by simp [h5, h6]⟩, by simp [ukFixed]⟩, y, h3, h4, rfl⟩
    · exact ⟨(7, 12), ⟨_, ⟨h, by simp [h5, h6]⟩, by simp [ukFixed]⟩, y, h3, h4, rfl⟩
    · exact ⟨(11, 30), ⟨_, ⟨h, by simp [h5, h6]⟩, by simp [ukFixed]⟩, y, h3, h4, rfl⟩
    · exact ⟨(12, 25), ⟨_, ⟨h, by simp⟩, by simp [ukFixed]⟩, y, h3, h4, rfl⟩
    · exact ⟨(12, 26), ⟨_, ⟨h, by simp⟩, by simp [ukFixed]⟩, y, h3, h4, rfl⟩

theorem uk_different (dno : List String) : DifferentDates (observed dno ukFixed) := by
  have hs := observed_sublist dno ukFixed
  refine ⟨hs.nodup (by decide), ?_⟩
  intro md h md' h' y y' e
  rcases uk_pair (hs.subset h) (hs.subset h') y y' with h | h | h | h | h
  · exact h
  · omega
  · omega
  · omega
  · omega

theorem uk_gap (dno : List String) (a b x x' : Int) (h : OnDates (observed dno ukFixed) a b x) (h' : OnDates (observed dno ukFixed) a b x')
    (hlt : x < x') : x + 1 = x' ∨ x + 6 ≤ x' := by
  have hs := observed_sublist dno ukFixed
  obtain ⟨md, h1, y, _, _, rfl⟩ := h
  obtain ⟨md', h1', y', _, _, rfl⟩ := h'
  rcases uk_pair (hs.subset h1) (hs.subset h1') y y' with ⟨rfl, rfl⟩ | h | h | h | h <;> omega

/-- The neighbour of a fixed holiday which is one too is in the same year. -/
theorem uk_neighbour {country : String} {dno : List String} {y y' h h' : Int} (h1 : UKFixed country dno y h) (h2 : UKFixed country dno y' h')
    (e : h' = h + 1 ∨ h' = h - 1) : y' = y := by
  have key : ∀ z x, UKFixed country dno z x → ∃ md ∈ ukFixed.map Prod.snd, x = dayNum z md.1 md.2 := by
    intro z x hx
    obtain ⟨md, hm, u, h3, h4, rfl⟩ := (uk_dates country dno z z x).2 ⟨z, by omega, by omega, hx⟩
    have : u = z := by omega
    subst this
    exact ⟨md, (observed_sublist _ _).subset hm, rfl⟩
  obtain ⟨md, m1, rfl⟩ := key y h h1
  obtain ⟨md', m2, rfl⟩ := key y' h' h2
  rcases uk_pair m1 m2 y y' with h | h | h | h | h <;> omega

theorem SubstituteDay.congr {G G' : Int → Prop} {h x : Int} (h1 : G (h - 1) ↔ G' (h - 1)) (h2 : G (h + 1) ↔ G' (h + 1)) :
    SubstituteDay G h x ↔ SubstituteDay G' h x := by
  unfold SubstituteDay; rw [h1, h2]

theorem uk_fixed (country : String) (dno : List String) (a b : Int) (label : V) (lw : Bool) :
    ∃ d, fixedHolidays (observed (ukNotObserved country dno) ukFixed) (yearRange a b) label lw "next" = .ok d ∧
      d.Exactly label (fun k => ∃ x, k = (if lw then .ts (x * nsDay) else .str (x * nsDay)) ∧
        ∃ y, a ≤ y ∧ y ≤ b ∧ (UKFixed country dno y x ∨ (lw = true ∧ ∃ h, UKFixed country dno y h ∧ SubstituteDay (UKFixed country dno y) h x))) := by
  cases lw with
  | true =>
    obtain ⟨d, e, h1, h2⟩ := fixed_extended (uk_different (ukNotObserved country dno)) a b label (how := "next") (by simp)
      (R := SubstituteDay (OnDates (observed (ukNotObserved country dno) ukFixed) a b))
      (fun added hx hs hm => hx.substitute (given := OnDates (observed (ukNotObserved country dno) ukFixed) a b)
        (fun x x' h h' hlt => by have := uk_gap _ a b x x' h h' hlt; omega) [] (by simp) (by intro p hp; cases hp)
        (fun p hp => ((hm p.1).1 (List.mem_map_of_mem hp)).1) hs (fun x h1 h2 => (hm x).2 ⟨h1, h2⟩))
      (fun h x => by unfold SubstituteDay; simp only [List.mem_cons, List.not_mem_nil, or_false]; omega)
      (fun h x y => by
        unfold SubstituteDay
        rintro (⟨h1, h2⟩ | ⟨h1, h2, h3, h4⟩ | ⟨h1, h2, h3⟩) (⟨g1, g2⟩ | ⟨g1, g2, g3, g4⟩ | ⟨g1, g2, g3⟩) <;>
          first | omega | (exfalso; rcases h2 with h2 | h2 <;> contradiction) | (exfalso; rcases g2 with g2 | g2 <;> contradiction))
    refine ⟨tsKeys d, ?_, (Dict.Exactly.of_mem h1 h2).tsKeys.congr ?_⟩
    · unfold fixedHolidays; rw [e]; rfl
    · intro k
      have hsub : ∀ y h x, a ≤ y → y ≤ b → UKFixed country dno y h →
          (SubstituteDay (OnDates (observed (ukNotObserved country dno) ukFixed) a b) h x ↔ SubstituteDay (UKFixed country dno y) h x) := by
        intro y h x h3 h4 hf
        apply SubstituteDay.congr
        · rw [uk_dates]
          constructor
          · rintro ⟨y', _, _, h5⟩
            have := uk_neighbour hf h5 (Or.inr rfl)
            subst this; exact h5
          · intro h5; exact ⟨y, h3, h4, h5⟩
        · rw [uk_dates]
          constructor
          · rintro ⟨y', _, _, h5⟩
            have := uk_neighbour hf h5 (Or.inl rfl)
            subst this; exact h5
          · intro h5; exact ⟨y, h3, h4, h5⟩
      simp only [↓reduceIte, true_and]
      constructor
      · rintro ⟨t, rfl, x, rfl, hx | ⟨h, hh, h6⟩⟩
        · obtain ⟨y, h3, h4, h5⟩ := (uk_dates _ _ _ _ _).1 hx
          exact ⟨x, rfl, y, h3, h4, Or.inl h5⟩
        · obtain ⟨y, h3, h4, h5⟩ := (uk_dates _ _ _ _ _).1 hh
          exact ⟨x, rfl, y, h3, h4, Or.inr ⟨h, h5, (hsub y h x h3 h4 h5).1 h6⟩⟩
      · rintro ⟨x, rfl, y, h3, h4, h5 | ⟨h, h5, h6⟩⟩
        · exact ⟨_, rfl, x, rfl, Or.inl ((uk_dates _ _ _ _ _).2 ⟨y, h3, h4, h5⟩)⟩
        · exact ⟨_, rfl, x, rfl, Or.inr ⟨h, (uk_dates _ _ _ _ _).2 ⟨y, h3, h4, h5⟩, (hsub y h x h3 h4 h5).2 h6⟩⟩
  | false =>
    refine ⟨_, rfl, ?_⟩
    have e : (fixedDates (observed (ukNotObserved country dno) ukFixed) (yearRange a b) label).map (fun x => (DKey.str x.1, x.2)) =
        ((fixedDates (observed (ukNotObserved country dno) ukFixed) (yearRange a b) label).map (fun x => DKey.str x.1)).map (fun k => (k, label)) := by
      rw [List.map_map]
      apply List.map_congr_left
      rintro ⟨t, v⟩ hx
      rw [(mem_fixedDates.1 hx).1]; rfl
    rw [e]
    refine (Dict.Exactly.const _ label).congr ?_
    intro k
    simp only [List.mem_map, Bool.false_eq_true, ↓reduceIte, false_and, or_false]
    constructor
    · rintro ⟨⟨t, v⟩, hx, rfl⟩
      obtain ⟨_, x, rfl, h⟩ := mem_fixedDates.1 hx
      exact ⟨x, rfl, (uk_dates _ _ _ _ _).1 h⟩
    · rintro ⟨x, rfl, h⟩
      exact ⟨(x * nsDay, label), mem_fixedDates.2 ⟨rfl, x, rfl, (uk_dates _ _ _ _ _).2 h⟩, rfl⟩

theorem uk_floating (country : String) (dno : List String) (y x : Int) :
    ((∃ s ∈ observed (ukNotObserved country dno) (ukFloating country), s.Hits y (x * nsDay)) ∨
      ∃ s ∈ observed (ukNotObserved country dno) ukEaster, x * nsDay = (easterDay false y + s) * nsDay) ↔ UKFloating country dno y x := by
  have hits : ∀ (m w n : Int), SeekDate.Hits ⟨m, w, n, 0⟩ y (x * nsDay) ↔ IsNthWeekday (monthOfYear y m) (w - 1) n x := by
    intro m w n
    unfold SeekDate.Hits SeekDate.monthNum monthOfYear
    constructor
    · rintro ⟨d, h, e⟩
      have := nsDay_mul_inj e
      rw [show x = d by simp only at this; omega]; exact h
    · intro h; exact ⟨x, h, by simp⟩
  simp only [mem_observed, not_mem_ukNotObserved]
  unfold UKFloating ukFloating ukEaster
  simp only [List.mem_cons, List.not_mem_nil, or_false, Prod.mk.injEq]
  constructor
  · rintro (⟨s, ⟨name, ⟨h, h5, h6, h7⟩, h2⟩, h3⟩ | ⟨s, ⟨name, ⟨h, h5, h6, h7⟩, h2⟩, h3⟩)
    · rcases h2 with ⟨rfl, rfl⟩ | ⟨rfl, rfl⟩ | ⟨rfl, rfl⟩
      · rw [hits] at h3; exact Or.inl ⟨h, h3⟩
      · rw [hits] at h3; exact Or.inr (Or.inl ⟨h, h3⟩)
      · by_cases hc : country = "scotland"
        · rw [if_pos hc, hits] at h3; exact Or.inr (Or.inr (Or.inr (Or.inl ⟨h, hc, h3⟩)))
        · rw [if_neg hc, hits] at h3; exact Or.inr (Or.inr (Or.inl ⟨h, hc, h3⟩))
    · have h3 := nsDay_mul_inj h3
      rcases h2 with ⟨rfl, rfl⟩ | ⟨rfl, rfl⟩
      · exact Or.inr (Or.inr (Or.inr (Or.inr (Or.inl ⟨h, by omega⟩))))
      · exact Or.inr (Or.inr (Or.inr (Or.inr (Or.inr ⟨h, fun hc => by simp [hc] at h6, h3⟩))))
  · rintro (⟨h, h2⟩ | ⟨h, h2⟩ | ⟨h, hc, h2⟩ | ⟨h, hc, h2⟩ | ⟨h, h2⟩ | ⟨h, hc, h2⟩)
    · exact Or.inl ⟨⟨5, 1, 1, 0⟩, ⟨_, ⟨h, by simp⟩, by simp⟩, (hits _ _ _).2 h2⟩
    · exact Or.inl ⟨⟨5, 1, -1, 0⟩, ⟨_, ⟨h, by simp⟩, by simp⟩, (hits _ _ _).2 h2⟩
    · exact Or.inl ⟨⟨8, 1, -1, 0⟩, ⟨_, ⟨h, by simp⟩, by simp [hc]⟩, (hits _ _ _).2 h2⟩
    · exact Or.inl ⟨⟨8, 1, 1, 0⟩, ⟨_, ⟨h, by simp⟩, by simp [hc]⟩, (hits _ _ _).2 h2⟩
    · exact Or.inr ⟨-2, ⟨_, ⟨h, by simp⟩, by simp⟩, by rw [h2]; rfl⟩
    · exact Or.inr ⟨1, ⟨_, ⟨h, by simp [hc]⟩, by simp⟩, by rw [h2]⟩

/-- Days which are not holidays although they are the last Mondays of May, and one-off days. -/
def UKMoved (a b x : Int) : Prop :=
  (a ≤ 2002 ∧ 2002 ≤ b ∧ x = dayNum 2002 5 27) ∨ (a ≤ 2012 ∧ 2012 ≤ b ∧ x = dayNum 2012 5 28)

def UKOneOff (dno : List String) (a b x : Int) : Prop :=
  "royal" ∉ dno ∧
    ((a ≤ 2002 ∧ 2002 ≤ b ∧ (x = dayNum 2002 6 3 ∨ x = dayNum 2002 6 4)) ∨
     (a ≤ 2011 ∧ 2011 ≤ b ∧ x = dayNum 2011 4 29) ∨
     (a ≤ 2012 ∧ 2012 ≤ b ∧ (x = dayNum 2012 6 4 ∨ x = dayNum 2012 6 5)))

theorem uk_oneOff {a b : Int} {dno : List String} {label : V} {d : Dict DKey V} {P : DKey → Prop} (h : d.Exactly label P) :
    (ukOneOff (yearRange a b) dno label d).Exactly label
      (fun k => (P k ∧ ¬ ∃ x, k = .ts (x * nsDay) ∧ UKMoved a b x) ∨ ∃ x, k = .ts (x * nsDay) ∧ UKOneOff dno a b x) := by
  -- the days of one year
  have key : ∀ (d : Dict DKey V) (P : DKey → Prop) (y m e m1 e1 m2 e2 : Int), d.Exactly label P →
      (if (yearRange a b).contains y = true then
        if (!dno.contains "royal") = true then ((d.erase (.ts (date y m e))).set (.ts (date y m1 e1)) label).set (.ts (date y m2 e2)) label
        else d.erase (.ts (date y m e))
      else d).Exactly label (fun k => (P k ∧ ¬ (a ≤ y ∧ y ≤ b ∧ k = .ts (dayNum y m e * nsDay))) ∨
        ("royal" ∉ dno ∧ a ≤ y ∧ y ≤ b ∧ (k = .ts (dayNum y m1 e1 * nsDay) ∨ k = .ts (dayNum y m2 e2 * nsDay)))) := by
    intro d P y m e m1 e1 m2 e2 hd
    simp only [List.contains_eq_mem, decide_eq_true_eq, mem_yearRange, Bool.not_eq_true', decide_eq_false_iff_not]
    by_cases hy : a ≤ y ∧ y ≤ b
    · rw [if_pos hy]
      by_cases hr : "royal" ∈ dno
      · rw [if_neg (by simpa using hr)]
        refine (hd.erase _).congr ?_
        intro k; simp [hr, hy, date]
      · rw [if_pos hr]
        refine (((hd.erase _).set _).set _).congr ?_
        intro k; simp [hr, hy, date, or_assoc]
    · rw [if_neg hy]
      refine hd.congr ?_
      intro k
      have h1 : ¬ (a ≤ y ∧ y ≤ b ∧ k = .ts (dayNum y m e * nsDay)) := fun h => hy ⟨h.1, h.2.1⟩
      have h2 : ¬ ("royal" ∉ dno ∧ a ≤ y ∧ y ≤ b ∧ (k = .ts (dayNum y m1 e1 * nsDay) ∨ k = .ts (dayNum y m2 e2 * nsDay))) :=
        fun h => hy ⟨h.2.1, h.2.2.1⟩
      simp only [h1, h2, not_false_eq_true, and_true, or_false]
  have k1 := key d P 2002 5 27 6 3 6 4 h
  have k2 := k1.setIf ((yearRange a b).contains 2011 && !dno.contains "royal") (.ts (date 2011 4 29))
  have k3 := key _ _ 2012 5 28 6 4 6 5 k2
  unfold ukOneOff
  refine Dict.Exactly.congr k3 ?_
  intro k
  have inj : ∀ x y : Int, DKey.ts (x * nsDay) = DKey.ts (y * nsDay) ↔ x = y := by
    intro x y
    constructor
    · intro h; injection h with h; exact nsDay_mul_inj h
    · rintro rfl; rfl
  have n1 : dayNum 2002 6 3 = 11841 := by decide
  have n2 : dayNum 2002 6 4 = 11842 := by decide
  have n3 : dayNum 2011 4 29 = 15093 := by decide
  have n4 : dayNum 2012 6 4 = 15495 := by decide
  have n5 : dayNum 2012 6 5 = 15496 := by decide
  have n6 : dayNum 2012 5 28 = 15488 := by decide
  have n7 : dayNum 2002 5 27 = 11834 := by decide
  simp only [Bool.and_eq_true, List.contains_eq_mem, decide_eq_true_eq, mem_yearRange, Bool.not_eq_true', decide_eq_false_iff_not]
  unfold UKMoved UKOneOff date
  rw [n1, n2, n3, n4, n5, n6, n7]
  by_cases hk : ∃ x, k = .ts (x * nsDay)
  · obtain ⟨x, rfl⟩ := hk
    have ex : ∀ Q : Int → Prop, (∃ x', DKey.ts (x * nsDay) = DKey.ts (x' * nsDay) ∧ Q x') ↔ Q x := by
      intro Q
      constructor
      · rintro ⟨x', e, h⟩; rw [(inj _ _).1 e]; exact h
      · intro h; exact ⟨x, rfl, h⟩
    rw [ex, ex]
    simp only [inj]
    by_cases hp : P (DKey.ts (x * nsDay)) <;> by_cases hr : "royal" ∈ dno <;> simp only [hp, hr, true_and, false_and, and_true, and_false, not_true_eq_false, not_false_eq_true, false_or, or_false] <;> omega
  · have hne : ∀ z : Int, k ≠ .ts (z * nsDay) := fun z e => hk ⟨z, e⟩
    simp [hne]

/-- The keys of `bank_holidays`. -/
def UKKey (country : String) (dno : List String) (lw : Bool) (a b : Int) (k : DKey) : Prop :=
  (((∃ x, k = (if lw then .ts (x * nsDay) else .str (x * nsDay)) ∧
      ∃ y, a ≤ y ∧ y ≤ b ∧ (UKFixed country dno y x ∨ (lw = true ∧ ∃ h, UKFixed country dno y h ∧ SubstituteDay (UKFixed country dno y) h x))) ∨
    (∃ x, k = .ts (x * nsDay) ∧ ∃ y, a ≤ y ∧ y ≤ b ∧ UKFloating country dno y x)) ∧ ¬ ∃ x, k = .ts (x * nsDay) ∧ UKMoved a b x) ∨
  ∃ x, k = .ts (x * nsDay) ∧ UKOneOff dno a b x

theorem ukOneOff_dno (country : String) (dno : List String) (years : List Int) (label : V) (d : Dict DKey V) :
    ukOneOff years (ukNotObserved country dno) label d = ukOneOff years dno label d := by
  have h : (ukNotObserved country dno).contains "royal" = dno.contains "royal" := by
    unfold ukNotObserved
    have e1 : (if country = "england" then ["new_year2", "st_patricks", "orangemens", "st_andrews"] else []).contains "royal" = false := by split <;> rfl
    have e2 : (if country = "scotland" then ["st_patricks", "orangemens", "easter_monday"] else []).contains "royal" = false := by split <;> rfl
    have e3 : (if country = "northern_ireland" then ["new_year2", "st_andrews"] else []).contains "royal" = false := by split <;> rfl
    rw [List.contains_append, List.contains_append, List.contains_append, e1, e2, e3]; simp
  unfold ukOneOff
  rw [h]

theorem bankHolidays_exactly (country : String) (dno : List String) (lw : Bool) (a b : Int) (label : V) :
    ∃ d, bankHolidays a b country dno lw label = .ok d ∧ d.Exactly label (UKKey country dno lw a b) := by
  obtain ⟨d1, e1, h1⟩ := uk_fixed country dno a b label lw
  have hok : ∀ s ∈ observed (ukNotObserved country dno) (ukFloating country), s.Ok := fun s hs => by
    have h := (observed_sublist _ _).subset hs
    unfold ukFloating at h
    simp only [List.map_cons, List.map_nil, List.mem_cons, List.not_mem_nil, or_false] at h
    rcases h with rfl | rfl | rfl
    · decide
    · decide
    · split <;> decide
  obtain ⟨d2, e2, h2⟩ := years_loop (label := label) (Q := fun y k => ∃ x, k = .ts (x * nsDay) ∧ UKFloating country dno y x)
    (step := fun d y => do
      let f ← nthWeekdays y (observed (ukNotObserved country dno) (ukFloating country)) label
      return (d.update (tsKeys f)).update (tsKeys (easterDates false y (observed (ukNotObserved country dno) ukEaster) label))) (by
    intro d P y hd
    obtain ⟨f, ef, hf⟩ := seek_exactly y (observed (ukNotObserved country dno) (ukFloating country)) label hok
    have he : (easterDates false y (observed (ukNotObserved country dno) ukEaster) label).Exactly label
        (fun t => ∃ s ∈ observed (ukNotObserved country dno) ukEaster, t = (easterDay false y + s) * nsDay) :=
      Dict.Exactly.of_mem (C57_from_easter false y _ label).1 (C57_from_easter false y _ label).2
    refine ⟨_, by rw [ef]; rfl, ((hd.update hf.tsKeys).update he.tsKeys).congr ?_⟩
    intro k
    rw [or_assoc]
    apply or_congr Iff.rfl
    constructor
    · rintro (⟨t, rfl, s, hs, hh⟩ | ⟨t, rfl, s, hs, rfl⟩)
      · obtain ⟨x, rfl⟩ := hits_day hh
        exact ⟨x, rfl, (uk_floating country dno y x).1 (Or.inl ⟨s, hs, hh⟩)⟩
      · exact ⟨_, rfl, (uk_floating country dno y _).1 (Or.inr ⟨s, hs, rfl⟩)⟩
    · rintro ⟨x, rfl, h⟩
      rcases (uk_floating country dno y x).2 h with h | h
      · exact Or.inl ⟨_, rfl, h⟩
      · exact Or.inr ⟨_, rfl, h⟩) (yearRange a b) h1
  refine ⟨_, ?_, (uk_oneOff (a := a) (b := b) (dno := dno) h2).congr ?_⟩
  · unfold bankHolidays
    simp only [e1, Bind.bind, Except.bind] at e2 ⊢
    rw [e2]
    show Except.ok (ukOneOff _ _ _ _) = _
    rw [ukOneOff_dno]
  · intro k
    unfold UKKey
    simp only [mem_yearRange]
    apply or_congr _ Iff.rfl
    apply and_congr _ Iff.rfl
    apply or_congr Iff.rfl
    constructor
    · rintro ⟨y, ⟨h3, h4⟩, x, rfl, h5⟩
      exact ⟨x, rfl, y, h3, h4, h5⟩
    · rintro ⟨x, rfl, y, h3, h4, h5⟩
      exact ⟨y, ⟨h3, h4⟩, x, rfl, h5⟩

end
end TB
