import Verif.Lemmas.CalendarLabels
/-! The days of the tables of the preconfigured calendars. -/
namespace TB

/-- The days off in the table of a calendar. -/
def Dict.DaysOff (d : Dict DKey Int) (P : Int → Prop) : Prop := d.Distinct ∧ d.Aligned ∧ d.Clear ∧
  (∀ D, P D → d.dayLabel D = some 0) ∧ (∀ D, ¬ P D → d.dayLabel D = none)

theorem Dict.Exactly.get_none {d : Dict DKey Int} {P : DKey → Prop} (h : d.Exactly 0 P) (k : DKey) : d.get? k = none ↔ ¬ P k := by
  constructor
  · intro hn hp
    have := (h.2 k 0).2 ⟨rfl, hp⟩
    rw [hn] at this; simp at this
  · intro hp
    cases e : d.get? k with
    | none => rfl
    | some v => exact absurd ((h.2 k v).1 e).2 hp

theorem Dict.Exactly.daysOff {d : Dict DKey Int} {P : DKey → Prop} {Q : Int → Prop} (h : d.Exactly 0 P)
    (ha : ∀ k, P k → ∃ x, k.time = x * nsDay) (hc : ∀ x, P (.ts (x * nsDay)) → ¬ P (.str (x * nsDay)))
    (hq : ∀ x, Q x ↔ P (.ts (x * nsDay)) ∨ P (.str (x * nsDay))) : d.DaysOff Q := by
  refine ⟨h.1, ?_, ?_, ?_, ?_⟩
  · intro k v hk; exact ha k ((h.2 k v).1 hk).2
  · intro t
    rw [h.get_none, h.get_none]
    by_cases hp : P (.ts t)
    · right
      obtain ⟨x, hx⟩ := ha _ hp
      simp only [DKey.time] at hx
      rw [hx] at hp ⊢
      exact hc x hp
    · exact .inl hp
  · intro D hD
    unfold Dict.dayLabel
    rcases (hq D).1 hD with h1 | h1
    · rw [(h.2 _ 0).2 ⟨rfl, h1⟩]; rfl
    · rw [(h.get_none _).2 (fun h2 => hc D h2 h1), (h.2 _ 0).2 ⟨rfl, h1⟩]; rfl
  · intro D hD
    unfold Dict.dayLabel
    rw [hq] at hD
    rw [(h.get_none _).2 (fun h2 => hD (.inl h2)), (h.get_none _).2 (fun h2 => hD (.inr h2))]; rfl

/-- US: the table. -/
theorem us_daysOff (dno : List String) (lw : Bool) (a b : Int) :
    ∃ d, fedHolidays a b dno lw (0 : Int) = .ok d ∧ d.DaysOff (fun x => ∃ y, a ≤ y ∧ y ≤ b ∧ USOfYear dno lw y x) ∧
      ∀ t, d.get? (.str t) ≠ none ↔ lw = false ∧ ∃ x y, t = x * nsDay ∧ a ≤ y ∧ y ≤ b ∧ USFixed dno y x := by
  obtain ⟨d, e, h⟩ := fedHolidays_exactly dno lw a b (0 : Int)
  refine ⟨d, e, h.daysOff ?_ ?_ ?_, ?_⟩
  · rintro k (⟨x, rfl, _⟩ | ⟨x, rfl, _⟩)
    · cases lw <;> exact ⟨x, rfl⟩
    · exact ⟨x, rfl⟩
  · intro x h1 h2
    cases lw with
    | true =>
      rcases h2 with ⟨x', hx', _⟩ | ⟨x', hx', _⟩ <;> simp at hx'
    | false =>
      rcases h2 with ⟨x', hx', y, hy1, hy2, hf | ⟨hf, _⟩⟩ | ⟨x', hx', _⟩
      · simp only [Bool.false_eq_true, if_false, DKey.str.injEq] at hx'
        cases nsDay_mul_inj hx'
        rcases h1 with ⟨x', hx', _⟩ | ⟨x', hx', ⟨y', _, _, hy'⟩ | ho⟩
        · simp at hx'
        · simp only [DKey.ts.injEq] at hx'; cases nsDay_mul_inj hx'
          exact us_fixed_floating hf hy'
        · simp only [DKey.ts.injEq] at hx'; cases nsDay_mul_inj hx'
          exact us_fixed_oneOff hf ho
      · simp at hf
      · simp at hx'
  · intro x
    constructor
    · rintro ⟨y, hy1, hy2, hf | ⟨hl, hn⟩ | hf | ⟨rfl, ho⟩ | ⟨rfl, ho⟩ | ⟨rfl, ho⟩⟩
      · cases lw
        · exact .inr (.inl ⟨x, rfl, y, hy1, hy2, .inl hf⟩)
        · exact .inl (.inl ⟨x, rfl, y, hy1, hy2, .inl hf⟩)
      · subst hl
        exact .inl (.inl ⟨x, rfl, y, hy1, hy2, .inr ⟨rfl, hn⟩⟩)
      · exact .inl (.inr ⟨x, rfl, .inl ⟨y, hy1, hy2, hf⟩⟩)
      · exact .inl (.inr ⟨x, rfl, .inr (.inl ⟨hy1, hy2, ho⟩)⟩)
      · exact .inl (.inr ⟨x, rfl, .inr (.inr (.inl ⟨hy1, hy2, ho⟩))⟩)
      · exact .inl (.inr ⟨x, rfl, .inr (.inr (.inr ⟨hy1, hy2, ho⟩))⟩)
    · have key : ∀ k : DKey, (k = .ts (x * nsDay) ∨ k = .str (x * nsDay)) → USKey dno lw a b k → ∃ y, a ≤ y ∧ y ≤ b ∧ USOfYear dno lw y x := by
        rintro k hk (⟨x', hx', y, hy1, hy2, h1⟩ | ⟨x', hx', h1⟩)
        · have : x = x' := by
            rcases hk with rfl | rfl <;> cases lw <;> simp at hx'
            · exact nsDay_mul_inj hx'
            · exact nsDay_mul_inj hx'
          subst this
          rcases h1 with h1 | h1
          · exact ⟨y, hy1, hy2, .inl h1⟩
          · exact ⟨y, hy1, hy2, .inr (.inl h1)⟩
        · have : x = x' := by
            rcases hk with rfl | rfl <;> simp at hx'
            exact nsDay_mul_inj hx'
          subst this
          rcases h1 with ⟨y, hy1, hy2, h1⟩ | ⟨hy1, hy2, h1⟩ | ⟨hy1, hy2, h1⟩ | ⟨hy1, hy2, h1⟩
          · exact ⟨y, hy1, hy2, .inr (.inr (.inl h1))⟩
          · exact ⟨2014, hy1, hy2, .inr (.inr (.inr (.inl ⟨rfl, h1⟩)))⟩
          · exact ⟨2018, hy1, hy2, .inr (.inr (.inr (.inr (.inl ⟨rfl, h1⟩))))⟩
          · exact ⟨2018, hy1, hy2, .inr (.inr (.inr (.inr (.inr ⟨rfl, h1⟩))))⟩
      rintro (h1 | h1)
      · exact key _ (.inl rfl) h1
      · exact key _ (.inr rfl) h1
  · intro t
    rw [Ne, h.get_none, Classical.not_not]
    constructor
    · rintro (⟨x', hx', y, hy1, hy2, h1⟩ | ⟨x', hx', h1⟩)
      · cases lw with
        | true => simp at hx'
        | false =>
          simp only [Bool.false_eq_true, if_false, DKey.str.injEq] at hx'
          rcases h1 with h1 | ⟨h1, _⟩
          · exact ⟨rfl, x', y, hx', hy1, hy2, h1⟩
          · simp at h1
      · simp at hx'
    · rintro ⟨rfl, x, y, rfl, hy1, hy2, h1⟩
      exact .inl ⟨x, rfl, y, hy1, hy2, .inl h1⟩

theorem uk_moved_year {country : String} {dno : List String} {y x : Int} (h : UKFloating country dno y x) :
    (x = dayNum 2002 5 27 → y = 2002) ∧ (x = dayNum 2012 5 28 → y = 2012) := by
  obtain ⟨l, o, hd, ho⟩ := h.offset
  have h1 := hd.1
  constructor
  · rintro rfl
    have hd' : DayOfYear 2002 0 146 (dayNum 2002 5 27) := ⟨by omega, by decide, by decide⟩
    have := hd.unique hd' (by omega) (by omega)
    exact this.1
  · rintro rfl
    have hd' : DayOfYear 2012 1 148 (dayNum 2012 5 28) := ⟨by omega, by decide, by decide⟩
    have := hd.unique hd' (by omega) (by omega)
    exact this.1

theorem UKMoved.offset {a b x : Int} (h : UKMoved a b x) : ∃ y l o, a ≤ y ∧ y ≤ b ∧ DayOfYear y l o x ∧ (o = 146 ∨ o = 148) := by
  rcases h with ⟨h1, h2, rfl⟩ | ⟨h1, h2, rfl⟩
  · exact ⟨2002, 0, 146, h1, h2, ⟨by omega, by decide, by decide⟩, by omega⟩
  · exact ⟨2012, 1, 148, h1, h2, ⟨by omega, by decide, by decide⟩, by omega⟩

theorem SubstituteDay.near {given : Int → Prop} {h x : Int} (hs : SubstituteDay given h x) : x = h + 1 ∨ x = h + 2 := by
  rcases hs with ⟨_, h⟩ | ⟨_, _, _, h⟩ | ⟨_, _, h⟩ <;> omega

theorem uk_fixed_moved {country : String} {dno : List String} {y x h a b : Int} (hf : UKFixed country dno y h) (hx : x = h ∨ x = h + 1 ∨ x = h + 2)
    (hm : UKMoved a b x) : False := by
  obtain ⟨l, o, hd, ho⟩ := hf.offset
  obtain ⟨y', l', o', _, _, hd', ho'⟩ := hm.offset
  have h1 := hd.1
  have h2 := hd'.1
  have hd1 : DayOfYear y l (o + (x - h)) x := ⟨hd.1, hd.2.1, by have := hd.2.2; omega⟩
  have := hd1.unique hd' (by omega) (by omega)
  omega

/-- UK: the table. -/
theorem uk_daysOff (country : String) (dno : List String) (lw : Bool) (a b : Int) :
    ∃ d, bankHolidays a b country dno lw (0 : Int) = .ok d ∧ d.DaysOff (fun x => ∃ y, a ≤ y ∧ y ≤ b ∧ UKOfYear country dno lw y x) ∧
      ∀ t, d.get? (.str t) ≠ none ↔ lw = false ∧ ∃ x y, t = x * nsDay ∧ a ≤ y ∧ y ≤ b ∧ UKFixed country dno y x := by
  obtain ⟨d, e, h⟩ := bankHolidays_exactly country dno lw a b (0 : Int)
  have hstr : ∀ t, UKKey country dno lw a b (.str t) ↔ lw = false ∧ ∃ x y, t = x * nsDay ∧ a ≤ y ∧ y ≤ b ∧ UKFixed country dno y x := by
    intro t
    constructor
    · rintro (⟨⟨x', hx', y, hy1, hy2, h1⟩ | ⟨x', hx', h1⟩, _⟩ | ⟨x', hx', _⟩)
      · cases lw with
        | true => simp at hx'
        | false =>
          simp only [Bool.false_eq_true, if_false, DKey.str.injEq] at hx'
          rcases h1 with h1 | ⟨h1, _⟩
          · exact ⟨rfl, x', y, hx', hy1, hy2, h1⟩
          · simp at h1
      · simp at hx'
      · simp at hx'
    · rintro ⟨rfl, x, y, rfl, hy1, hy2, h1⟩
      exact .inl ⟨.inl ⟨x, rfl, y, hy1, hy2, .inl h1⟩, by rintro ⟨x', hx', _⟩; simp at hx'⟩
  refine ⟨d, e, h.daysOff ?_ ?_ ?_, ?_⟩
  · rintro k (⟨⟨x, rfl, _⟩ | ⟨x, rfl, _⟩, _⟩ | ⟨x, rfl, _⟩)
    · cases lw <;> exact ⟨x, rfl⟩
    · exact ⟨x, rfl⟩
    · exact ⟨x, rfl⟩
  · intro x h1 h2
    rw [hstr] at h2
    obtain ⟨rfl, x', y, hx', hy1, hy2, hf⟩ := h2
    cases nsDay_mul_inj hx'
    rcases h1 with ⟨⟨x', hx', _⟩ | ⟨x', hx', y', _, _, hy'⟩, _⟩ | ⟨x', hx', ho⟩
    · simp at hx'
    · simp only [DKey.ts.injEq] at hx'; cases nsDay_mul_inj hx'
      exact uk_fixed_floating hf hy'
    · simp only [DKey.ts.injEq] at hx'; cases nsDay_mul_inj hx'
      exact uk_fixed_oneOff hf ho
  · intro x
    rw [hstr]
    have hts : UKKey country dno lw a b (.ts (x * nsDay)) ↔
        ((lw = true ∧ ∃ y, a ≤ y ∧ y ≤ b ∧ (UKFixed country dno y x ∨ ∃ h, UKFixed country dno y h ∧ SubstituteDay (UKFixed country dno y) h x)) ∨
         (∃ y, a ≤ y ∧ y ≤ b ∧ UKFloating country dno y x ∧ x ≠ dayNum 2002 5 27 ∧ x ≠ dayNum 2012 5 28) ∨ UKOneOff dno a b x) := by
      constructor
      · rintro (⟨⟨x', hx', y, hy1, hy2, h1⟩ | ⟨x', hx', y, hy1, hy2, h1⟩, hm⟩ | ⟨x', hx', ho⟩)
        · cases lw with
          | false => simp at hx'
          | true =>
            simp only [if_true, DKey.ts.injEq] at hx'; cases nsDay_mul_inj hx'
            rcases h1 with h1 | ⟨_, h1⟩
            · exact .inl ⟨rfl, y, hy1, hy2, .inl h1⟩
            · exact .inl ⟨rfl, y, hy1, hy2, .inr h1⟩
        · simp only [DKey.ts.injEq] at hx'; cases nsDay_mul_inj hx'
          have hy := uk_moved_year h1
          refine .inr (.inl ⟨y, hy1, hy2, h1, ?_, ?_⟩)
          · rintro rfl
            have := hy.1 rfl; subst this
            exact hm ⟨_, rfl, .inl ⟨hy1, hy2, rfl⟩⟩
          · rintro rfl
            have := hy.2 rfl; subst this
            exact hm ⟨_, rfl, .inr ⟨hy1, hy2, rfl⟩⟩
        · simp only [DKey.ts.injEq] at hx'; cases nsDay_mul_inj hx'
          exact .inr (.inr ho)
      · rintro (⟨rfl, y, hy1, hy2, h1⟩ | ⟨y, hy1, hy2, h1, h2, h3⟩ | ho)
        · refine .inl ⟨.inl ⟨x, rfl, y, hy1, hy2, ?_⟩, ?_⟩
          · rcases h1 with h1 | h1
            · exact .inl h1
            · exact .inr ⟨rfl, h1⟩
          · rintro ⟨x', hx', hm⟩
            simp only [DKey.ts.injEq] at hx'; cases nsDay_mul_inj hx'
            rcases h1 with h1 | ⟨h, h1, h2⟩
            · exact uk_fixed_moved h1 (.inl rfl) hm
            · exact uk_fixed_moved h1 (.inr h2.near) hm
        · refine .inl ⟨.inr ⟨x, rfl, y, hy1, hy2, h1⟩, ?_⟩
          rintro ⟨x', hx', hm⟩
          simp only [DKey.ts.injEq] at hx'; cases nsDay_mul_inj hx'
          rcases hm with ⟨_, _, hm⟩ | ⟨_, _, hm⟩
          · exact h2 hm
          · exact h3 hm
        · exact .inr ⟨x, rfl, ho⟩
    rw [hts]
    unfold UKOfYear UKRoyal UKOneOff
    constructor
    · rintro ⟨y, hy1, hy2, h1 | ⟨rfl, h1⟩ | ⟨h1, h2⟩ | ⟨hr, ⟨rfl, h1⟩ | ⟨rfl, h1⟩ | ⟨rfl, h1⟩⟩⟩
      · cases lw
        · exact .inr ⟨rfl, x, y, rfl, hy1, hy2, h1⟩
        · exact .inl (.inl ⟨rfl, y, hy1, hy2, .inl h1⟩)
      · exact .inl (.inl ⟨rfl, y, hy1, hy2, .inr h1⟩)
      · exact .inl (.inr (.inl ⟨y, hy1, hy2, h1, h2⟩))
      · exact .inl (.inr (.inr ⟨hr, .inl ⟨hy1, hy2, h1⟩⟩))
      · exact .inl (.inr (.inr ⟨hr, .inr (.inl ⟨hy1, hy2, h1⟩)⟩))
      · exact .inl (.inr (.inr ⟨hr, .inr (.inr ⟨hy1, hy2, h1⟩)⟩))
    · rintro ((⟨rfl, y, hy1, hy2, h1 | h1⟩ | ⟨y, hy1, hy2, h1⟩ | ⟨hr, ⟨hy1, hy2, h1⟩ | ⟨hy1, hy2, h1⟩ | ⟨hy1, hy2, h1⟩⟩) | ⟨rfl, x', y, hx', hy1, hy2, h1⟩)
      · exact ⟨y, hy1, hy2, .inl h1⟩
      · exact ⟨y, hy1, hy2, .inr (.inl ⟨rfl, h1⟩)⟩
      · exact ⟨y, hy1, hy2, .inr (.inr (.inl h1))⟩
      · exact ⟨_, hy1, hy2, .inr (.inr (.inr ⟨hr, .inl ⟨rfl, h1⟩⟩))⟩
      · exact ⟨_, hy1, hy2, .inr (.inr (.inr ⟨hr, .inr (.inl ⟨rfl, h1⟩)⟩))⟩
      · exact ⟨_, hy1, hy2, .inr (.inr (.inr ⟨hr, .inr (.inr ⟨rfl, h1⟩)⟩))⟩
      · cases nsDay_mul_inj hx'
        exact ⟨y, hy1, hy2, .inl h1⟩
  · intro t
    rw [Ne, h.get_none, Classical.not_not, hstr]

end TB
