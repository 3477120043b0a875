import Verif.Lemmas.Extend
import Verif.Lemmas.Freq
import Verif.Lemmas.Calendar
import Verif.Spec.Holidays
/-! Holidays on fixed dates and the days off instead of those on weekends. -/
namespace TB

theorem DayAfterWeekend.sat_sun {h e : Int} (hd : DayAfterWeekend [5, 6] h e) :
    (weekday h = 5 ∧ e = h + 2) ∨ (weekday h = 6 ∧ e = h + 1) := by
  obtain ⟨h1, h2, h3⟩ := hd
  have a0 := h2 h (by omega) h1
  have a1 := h2 (h + 1) (by omega)
  have a2 := h2 (h + 2) (by omega)
  simp only [List.mem_cons, List.not_mem_nil, or_false] at a0 a1 a2 h3
  have : e = h + 1 ∨ e = h + 2 ∨ h + 2 < e := by omega
  rcases this with rfl | rfl | h4
  · unfold weekday at *; omega
  · unfold weekday at *; omega
  · have := a1 (by omega); have := a2 (by omega); unfold weekday at *; omega

theorem DayBeforeWeekend.sat_sun {h e : Int} (hd : DayBeforeWeekend [5, 6] h e) :
    (weekday h = 5 ∧ e = h - 1) ∨ (weekday h = 6 ∧ e = h - 2) := by
  obtain ⟨h1, h2, h3⟩ := hd
  have a0 := h2 h (by omega) (by omega)
  have a1 := h2 (h - 1)
  have a2 := h2 (h - 2)
  simp only [List.mem_cons, List.not_mem_nil, or_false] at a0 a1 a2 h3
  have : e = h - 1 ∨ e = h - 2 ∨ e < h - 2 := by omega
  rcases this with rfl | rfl | h4
  · unfold weekday at *; omega
  · unfold weekday at *; omega
  · have := a1 (by omega) (by omega); have := a2 (by omega) (by omega); unfold weekday at *; omega

theorem SearchFrom.nearest {h e dir : Int} (hs : SearchFrom "nearest" [5, 6] h e dir) : NearestWeekday h e := by
  rcases hs with ⟨h1, _⟩ | ⟨h1, _⟩ | ⟨_, p, n, h1, h2, h3⟩
  · simp at h1
  · simp at h1
  · have := h1.sat_sun
    have := h2.sat_sun
    unfold NearestWeekday
    omega

theorem SearchFrom.next {h e dir : Int} (hs : SearchFrom "next" [5, 6] h e dir) :
    dir = 1 ∧ ((weekday h = 5 ∧ e = h + 2) ∨ (weekday h = 6 ∧ e = h + 1)) := by
  rcases hs with ⟨h1, _⟩ | ⟨_, h1, h2⟩ | ⟨h1, _⟩
  · simp at h1
  · exact ⟨h2, h1.sat_sun⟩
  · simp at h1

/-- The nearest weekday is free if the given days are not close to each other. -/
theorem Extension.nearest {taken : Int → Prop} {added : List (Int × Int)} (hx : Extension "nearest" [5, 6] taken added)
    {given : Int → Prop} (hgap : ∀ a b, given a → given b → a < b → a + 3 ≤ b) :
    ∀ prev : List (Int × Int), (∀ x, taken x ↔ given x ∨ x ∈ prev.map Prod.snd) → (∀ p ∈ prev, given p.1 ∧ NearestWeekday p.1 p.2) →
      (∀ p ∈ added, given p.1) → ((prev ++ added).map Prod.fst).Nodup → ∀ p ∈ added, NearestWeekday p.1 p.2 := by
  induction hx with
  | nil => intro _ _ _ _ _ p hp; cases hp
  | @cons taken h e dir j rest hs h1 h2 hr ih =>
    intro prev ht hp hg hn
    have hne := hs.nearest
    have hgh : given h := hg _ List.mem_cons_self
    have hdist : ∀ p ∈ prev, p.1 ≠ h := by
      intro p hpm e1
      rw [List.map_append, List.nodup_append] at hn
      exact hn.2.2 p.1 (List.mem_map_of_mem hpm) h (by simp) e1
    have hfree : ¬ taken e := by
      rw [ht]
      rintro (hge | hpe)
      · have g1 := hgap e h hge hgh
        have g2 := hgap h e hgh hge
        unfold NearestWeekday at hne
        omega
      · rw [List.mem_map] at hpe
        obtain ⟨p, hpm, e1⟩ := hpe
        obtain ⟨hgp, hnp⟩ := hp p hpm
        have g0 := hdist p hpm
        have g1 := hgap p.1 h hgp hgh
        have g2 := hgap h p.1 hgh hgp
        unfold NearestWeekday TB.weekday at *
        omega
    have hj : j = 0 := by
      cases j with
      | zero => rfl
      | succ j => have := h1 0 (by omega); simp at this; exact absurd this hfree
    subst hj
    have e0 : e + dir * ((0 : Nat) : Int) = e := by simp
    rw [e0] at h2 hr ih ⊢
    intro p hpm
    rcases List.mem_cons.1 hpm with rfl | hpm
    · exact hne
    · apply ih (prev ++ [(h, e)]) _ _ _ _ p hpm
      · intro x
        show taken x ∨ x = _ ↔ _
        rw [ht x, List.map_append, List.mem_append]
        simp only [List.map_cons, List.map_nil, List.mem_singleton]
        rw [or_assoc]
      · intro q hq
        rcases List.mem_append.1 hq with hq | hq
        · exact hp q hq
        · rw [List.mem_singleton] at hq; subst hq; exact ⟨hgh, hne⟩
      · exact fun q hq => hg q (List.mem_cons_of_mem _ hq)
      · simpa using hn

/-- The substitute days, if there are not more than two given days in a row. -/
theorem Extension.substitute {taken : Int → Prop} {added : List (Int × Int)} (hx : Extension "next" [5, 6] taken added)
    {given : Int → Prop} (hgap : ∀ a b, given a → given b → a < b → a + 1 = b ∨ a + 4 ≤ b) :
    ∀ prev : List (Int × Int), (∀ x, taken x ↔ given x ∨ x ∈ prev.map Prod.snd) → (∀ p ∈ prev, given p.1 ∧ SubstituteDay given p.1 p.2) →
      (∀ p ∈ added, given p.1) → ((prev ++ added).map Prod.fst).Pairwise (· < ·) →
      (∀ x, given x → TB.weekday x ∈ [5, 6] → x ∈ (prev ++ added).map Prod.fst) → ∀ p ∈ added, SubstituteDay given p.1 p.2 := by
  induction hx with
  | nil => intro _ _ _ _ _ _ p hp; cases hp
  | @cons taken h e dir j rest hs h1 h2 hr ih =>
    intro prev ht hp hg hn hall
    obtain ⟨rfl, hne⟩ := hs.next
    have hgh : given h := hg _ List.mem_cons_self
    have hlt : ∀ p ∈ prev, p.1 < h := by
      intro p hpm
      rw [List.map_append, List.pairwise_append] at hn
      exact hn.2.2 p.1 (List.mem_map_of_mem hpm) h (by simp)
    -- a day after the weekend is taken by a previous substitute only if Saturday is given
    have hprev : ∀ x, x ∈ prev.map Prod.snd → h < x → TB.weekday h = 6 ∧ given (h - 1) ∧ x = h + 1 := by
      intro x hx hxh
      rw [List.mem_map] at hx
      obtain ⟨p, hpm, rfl⟩ := hx
      obtain ⟨hgp, hsp⟩ := hp p hpm
      have l := hlt p hpm
      have g := hgap p.1 h hgp hgh l
      have e3 : p.1 = h - 1 := by unfold SubstituteDay at hsp; omega
      unfold SubstituteDay at hsp
      rw [e3] at hsp hgp
      refine ⟨?_, hgp, ?_⟩
      · unfold TB.weekday at *; omega
      · unfold TB.weekday at *; omega
    have hprev' : TB.weekday h = 6 → given (h - 1) → h + 1 ∈ prev.map Prod.snd := by
      intro h6 hgs
      have h5 : TB.weekday (h - 1) = 5 := by unfold TB.weekday at *; omega
      have hm := hall (h - 1) hgs (by simp [h5])
      rw [List.map_append, List.mem_append] at hm
      rcases hm with hm | hm
      · rw [List.mem_map] at hm
        obtain ⟨p, hpm, e1⟩ := hm
        obtain ⟨_, hsp⟩ := hp p hpm
        refine List.mem_map.2 ⟨p, hpm, ?_⟩
        unfold SubstituteDay at hsp
        rw [e1] at hsp
        omega
      · exfalso
        rw [List.map_append, List.pairwise_append] at hn
        have hc := hn.2.1
        rw [List.map_cons, List.mem_cons] at hm
        rw [List.map_cons, List.pairwise_cons] at hc
        rcases hm with hm | hm
        · simp only at hm; omega
        · have := hc.1 _ hm; simp only at this; omega
    have hx : SubstituteDay given h (e + 1 * (j : Int)) := by
      rw [ht] at h2
      rcases hne with ⟨h5, rfl⟩ | ⟨h6, rfl⟩
      · left
        refine ⟨h5, ?_⟩
        have hfree : ¬ taken (h + 2) := by
          rw [ht]
          rintro (h3 | h3)
          · have := hgap h (h + 2) hgh h3 (by omega); omega
          · have := hprev _ h3 (by omega); omega
        cases j with
        | zero => simp
        | succ j => have := h1 0 (by omega); simp at this; exact absurd this hfree
      · right
        have h3 : ¬ taken (h + 2) := by
          rw [ht]
          rintro (h3 | h3)
          · have := hgap h (h + 2) hgh h3 (by omega); omega
          · have := hprev _ h3 (by omega); omega
        have hj : j = 0 ∨ j = 1 := by
          have : ¬ 1 < j := by
            intro h4
            have := h1 1 h4
            rw [show h + 1 + 1 * ((1 : Nat) : Int) = h + 2 by omega] at this
            exact h3 this
          omega
        rcases hj with rfl | rfl
        · left
          simp at h2
          refine ⟨h6, ?_, h2.1, by simp⟩
          intro hgs
          have := hprev' h6 hgs
          rw [List.mem_map] at this
          obtain ⟨p, hpm, e1⟩ := this
          exact h2.2 p.1 (by rw [← e1]; exact hpm)
        · right
          have h4 := h1 0 (by omega)
          rw [show h + 1 + 1 * ((0 : Nat) : Int) = h + 1 by omega, ht] at h4
          refine ⟨h6, ?_, by omega⟩
          rcases h4 with h4 | h4
          · exact Or.inr h4
          · exact Or.inl (hprev _ h4 (by omega)).2.1
    intro p hpm
    rcases List.mem_cons.1 hpm with rfl | hpm
    · exact hx
    · apply ih (prev ++ [(h, e + 1 * (j : Int))]) _ _ _ _ _ p hpm
      · intro x
        show taken x ∨ x = _ ↔ _
        rw [ht x, List.map_append, List.mem_append]
        simp only [List.map_cons, List.map_nil, List.mem_singleton]
        rw [or_assoc]
      · intro q hq
        rcases List.mem_append.1 hq with hq | hq
        · exact hp q hq
        · rw [List.mem_singleton] at hq; subst hq; exact ⟨hgh, hx⟩
      · exact fun q hq => hg q (List.mem_cons_of_mem _ hq)
      · simpa using hn
      · intro x h1 h2
        have := hall x h1 h2
        simpa using this

/-- Day `x` is one of the dates (month, day) of a year from `a` to `b`. -/
def OnDates (days : List (Int × Int)) (a b x : Int) : Prop := ∃ md ∈ days, ∃ y, a ≤ y ∧ y ≤ b ∧ x = dayNum y md.1 md.2

/-- The dates are different days. -/
def DifferentDates (days : List (Int × Int)) : Prop :=
  days.Nodup ∧ ∀ md ∈ days, ∀ md' ∈ days, ∀ y y', dayNum y md.1 md.2 = dayNum y' md'.1 md'.2 → md = md' ∧ y = y'

theorem mem_yearRange {a b y : Int} : y ∈ yearRange a b ↔ a ≤ y ∧ y ≤ b := by
  unfold yearRange; rw [mem_intRange]; omega

section
variable {V : Type}

theorem mem_fixedDates {days : List (Int × Int)} {a b : Int} {label : V} {t : Time} {v : V} :
    (t, v) ∈ fixedDates days (yearRange a b) label ↔ v = label ∧ ∃ x, t = x * nsDay ∧ OnDates days a b x := by
  unfold fixedDates OnDates
  simp only [List.mem_flatMap, List.mem_map, mem_yearRange, Prod.mk.injEq]
  constructor
  · rintro ⟨md, h1, y, ⟨h2, h3⟩, h4, h5⟩
    exact ⟨h5.symm, dayNum y md.1 md.2, h4.symm, md, h1, y, h2, h3, rfl⟩
  · rintro ⟨rfl, x, rfl, md, h1, y, h2, h3, rfl⟩
    exact ⟨md, h1, y, ⟨h2, h3⟩, rfl, rfl⟩

theorem nsDay_mul_inj {x y : Int} (h : x * nsDay = y * nsDay) : x = y := by unfold nsDay at h; omega

theorem DifferentDates.distinct {days : List (Int × Int)} (h : DifferentDates days) (a b : Int) (label : V) :
    Dict.Distinct (fixedDates days (yearRange a b) label) := by
  unfold Dict.Distinct fixedDates
  rw [List.map_flatMap, List.Nodup, List.pairwise_flatMap]
  constructor
  · intro md hmd
    rw [List.map_map, List.pairwise_map]
    refine (pairwise_intRange a (b + 1)).imp ?_
    intro y y' hlt he
    have := (h.2 md hmd md hmd y y' (nsDay_mul_inj he)).2
    omega
  · refine List.Pairwise.imp_of_mem ?_ h.1
    intro md md' hm hm' hne x hx y hy he
    simp only [List.map_map, List.mem_map, Function.comp_apply] at hx hy
    obtain ⟨u, _, rfl⟩ := hx
    obtain ⟨u', _, rfl⟩ := hy
    exact hne (h.2 md hm md' hm' u u' (nsDay_mul_inj he)).1

theorem fixed_extended {days : List (Int × Int)} (hd : DifferentDates days) (a b : Int) (label : V) {how : String}
    (hhow : how ∈ ["previous", "next", "nearest"]) {R : Int → Int → Prop}
    (hR : ∀ added : List (Int × Int), Extension how [5, 6] (OnDates days a b) added → (added.map Prod.fst).Pairwise (· < ·) →
      (∀ h : Int, h ∈ added.map Prod.fst ↔ OnDates days a b h ∧ weekday h ∈ [5, 6]) → ∀ p ∈ added, R p.1 p.2)
    (hR1 : ∀ h x, R h x → weekday h ∈ [5, 6]) (hR2 : ∀ h x y, R h x → R h y → x = y) :
    ∃ d, extendWeekends (fixedDates days (yearRange a b) label) how = .ok d ∧ d.Distinct ∧
      ∀ t v, (t, v) ∈ d ↔ v = label ∧ ∃ x, t = x * nsDay ∧ (OnDates days a b x ∨ ∃ h, OnDates days a b h ∧ R h x) := by
  obtain ⟨d, added, h1, h2, h3, h4, h5, h6⟩ := extendWeekends_spec (weekend := [5, 6]) hhow ⟨by decide, 5, by decide⟩ none
    (fixedDates days (yearRange a b) label) (hd.distinct a b label) (by
      rintro ⟨t, v⟩ hx
      obtain ⟨_, x, e, _⟩ := mem_fixedDates.1 hx
      exact ⟨x, e⟩)
  have key : ∀ x : Int, (∃ v, (x * nsDay, v) ∈ fixedDates days (yearRange a b) label) ↔ OnDates days a b x := by
    intro x
    constructor
    · rintro ⟨v, hv⟩
      obtain ⟨_, x', e, hx⟩ := mem_fixedDates.1 hv
      rw [nsDay_mul_inj e]; exact hx
    · intro hx; exact ⟨label, mem_fixedDates.2 ⟨rfl, x, rfl, hx⟩⟩
  simp only [key] at h4 h5
  have hr := hR added h5 h3 h4
  refine ⟨d, h1, h2, ?_⟩
  intro t v
  rw [h6]
  constructor
  · rintro (h | ⟨p, hp, rfl, h | ⟨_, h⟩⟩)
    · obtain ⟨e, x, e', hx⟩ := mem_fixedDates.1 h
      exact ⟨e, x, e', Or.inl hx⟩
    · simp at h
    · obtain ⟨e, x, e', hx⟩ := mem_fixedDates.1 h
      rw [← nsDay_mul_inj e'] at hx
      exact ⟨e, p.2, rfl, Or.inr ⟨p.1, hx, hr p hp⟩⟩
  · rintro ⟨rfl, x, rfl, hx | ⟨h, hx, hRx⟩⟩
    · exact Or.inl (mem_fixedDates.2 ⟨rfl, x, rfl, hx⟩)
    · right
      have hm := (h4 h).2 ⟨hx, hR1 h x hRx⟩
      rw [List.mem_map] at hm
      obtain ⟨p, hp, rfl⟩ := hm
      exact ⟨p, hp, by rw [hR2 _ _ _ hRx (hr p hp)], Or.inr ⟨rfl, mem_fixedDates.2 ⟨rfl, p.1, rfl, hx⟩⟩⟩

end

/-- Days of the year of the fixed dates. -/
theorem dayNum_fixed (y : Int) : ∃ l : Int, (l = 0 ∨ l = 1) ∧ yearStart (y + 1) = yearStart y + 365 + l ∧
    dayNum y 1 1 = yearStart y ∧ dayNum y 1 2 = yearStart y + 1 ∧ dayNum y 3 17 = yearStart y + 75 + l ∧
    dayNum y 7 4 = yearStart y + 184 + l ∧ dayNum y 7 12 = yearStart y + 192 + l ∧ dayNum y 11 11 = yearStart y + 314 + l ∧
    dayNum y 11 30 = yearStart y + 333 + l ∧ dayNum y 12 25 = yearStart y + 358 + l ∧ dayNum y 12 26 = yearStart y + 359 + l := by
  refine ⟨if isLeap y then 1 else 0, by split <;> simp, ?_, ?_⟩
  · rw [yearStart_succ]; split <;> omega
  · have e : ∀ m : Int, 1 ≤ m → m ≤ 12 → (12 * (y - 1970) + (m - 1)) / 12 = y - 1970 ∧ (12 * (y - 1970) + (m - 1)) % 12 = m - 1 := by
      intro m h1 h2; omega
    have e' : (1970 + (y - 1970) : Int) = y := by omega
    unfold dayNum monthStart
    refine ⟨?_, ?_, ?_, ?_, ?_, ?_, ?_, ?_, ?_⟩ <;>
    · rw [(e _ (by decide) (by decide)).1, (e _ (by decide) (by decide)).2, e']
      simp only [daysBefore, cumDays]
      simp
      try omega

theorem yearStart_le {y y' : Int} (h : y ≤ y') : yearStart y ≤ yearStart y' := by
  unfold yearStart; omega

/-- The days of the tables, counted from the beginning of the year; `l` is 1 in leap years. -/
def UsOffset (l o : Int) (md : Int × Int) : Prop :=
  (md = (1, 1) ∧ o = 0) ∨ (md = (7, 4) ∧ o = 184 + l) ∨ (md = (11, 11) ∧ o = 314 + l) ∨ (md = (12, 25) ∧ o = 358 + l)

def UkOffset (l o : Int) (md : Int × Int) : Prop :=
  (md = (1, 1) ∧ o = 0) ∨ (md = (1, 2) ∧ o = 1) ∨ (md = (3, 17) ∧ o = 75 + l) ∨ (md = (7, 12) ∧ o = 192 + l) ∨
  (md = (11, 30) ∧ o = 333 + l) ∨ (md = (12, 25) ∧ o = 358 + l) ∨ (md = (12, 26) ∧ o = 359 + l)

theorem us_offset {md : Int × Int} (h : md ∈ usFixed.map Prod.snd) (y : Int) :
    ∃ l o, (l = 0 ∨ l = 1) ∧ yearStart (y + 1) = yearStart y + 365 + l ∧ dayNum y md.1 md.2 = yearStart y + o ∧ UsOffset l o md := by
  obtain ⟨l, hl, hy, h1, h2, h3, h4, h5, h6, h7, h8, h9⟩ := dayNum_fixed y
  simp only [usFixed, List.map_cons, List.map_nil, List.mem_cons, List.not_mem_nil, or_false] at h
  rcases h with rfl | rfl | rfl | rfl
  · exact ⟨l, 0, hl, hy, by simp only; omega, by unfold UsOffset; simp⟩
  · exact ⟨l, 184 + l, hl, hy, by simp only; omega, by unfold UsOffset; simp⟩
  · exact ⟨l, 314 + l, hl, hy, by simp only; omega, by unfold UsOffset; simp⟩
  · exact ⟨l, 358 + l, hl, hy, by simp only; omega, by unfold UsOffset; simp⟩

theorem uk_offset {md : Int × Int} (h : md ∈ ukFixed.map Prod.snd) (y : Int) :
    ∃ l o, (l = 0 ∨ l = 1) ∧ yearStart (y + 1) = yearStart y + 365 + l ∧ dayNum y md.1 md.2 = yearStart y + o ∧ UkOffset l o md := by
  obtain ⟨l, hl, hy, h1, h2, h3, h4, h5, h6, h7, h8, h9⟩ := dayNum_fixed y
  simp only [ukFixed, List.map_cons, List.map_nil, List.mem_cons, List.not_mem_nil, or_false] at h
  rcases h with rfl | rfl | rfl | rfl | rfl | rfl | rfl
  · exact ⟨l, 0, hl, hy, by simp only; omega, by unfold UkOffset; simp⟩
  · exact ⟨l, 1, hl, hy, by simp only; omega, by unfold UkOffset; simp⟩
  · exact ⟨l, 75 + l, hl, hy, by simp only; omega, by unfold UkOffset; simp⟩
  · exact ⟨l, 192 + l, hl, hy, by simp only; omega, by unfold UkOffset; simp⟩
  · exact ⟨l, 333 + l, hl, hy, by simp only; omega, by unfold UkOffset; simp⟩
  · exact ⟨l, 358 + l, hl, hy, by simp only; omega, by unfold UkOffset; simp⟩
  · exact ⟨l, 359 + l, hl, hy, by simp only; omega, by unfold UkOffset; simp⟩

theorem UsOffset.range {l o : Int} {md : Int × Int} (h : UsOffset l o md) (hl : l = 0 ∨ l = 1) : 0 ≤ o ∧ o ≤ 358 + l := by
  unfold UsOffset at h; omega

theorem UkOffset.range {l o : Int} {md : Int × Int} (h : UkOffset l o md) (hl : l = 0 ∨ l = 1) : 0 ≤ o ∧ o ≤ 359 + l := by
  unfold UkOffset at h; omega

/-- Two dates of the US table. -/
theorem us_pair {md md' : Int × Int} (h : md ∈ usFixed.map Prod.snd) (h' : md' ∈ usFixed.map Prod.snd) (y y' : Int) :
    (md = md' ∧ y = y') ∨ dayNum y md.1 md.2 + 6 ≤ dayNum y' md'.1 md'.2 ∨ dayNum y' md'.1 md'.2 + 6 ≤ dayNum y md.1 md.2 := by
  obtain ⟨l, o, hl, hy, e, ho⟩ := us_offset h y
  obtain ⟨l', o', hl', hy', e', ho'⟩ := us_offset h' y'
  have r := ho.range hl
  have r' := ho'.range hl'
  rw [e, e']
  have hlt : y < y' ∨ y = y' ∨ y' < y := by omega
  rcases hlt with hlt | rfl | hlt
  · have := yearStart_le (show y + 1 ≤ y' by omega); omega
  · have : l = l' := by omega
    subst this
    rcases ho with ⟨rfl, rfl⟩ | ⟨rfl, rfl⟩ | ⟨rfl, rfl⟩ | ⟨rfl, rfl⟩ <;> rcases ho' with ⟨rfl, rfl⟩ | ⟨rfl, rfl⟩ | ⟨rfl, rfl⟩ | ⟨rfl, rfl⟩ <;>
      first | (left; exact ⟨rfl, rfl⟩) | (right; omega)
  · have := yearStart_le (show y' + 1 ≤ y by omega); omega

/-- Two dates of the UK table. -/
theorem uk_pair {md md' : Int × Int} (h : md ∈ ukFixed.map Prod.snd) (h' : md' ∈ ukFixed.map Prod.snd) (y y' : Int) :
    (md = md' ∧ y = y') ∨ (y = y' ∧ md ≠ md' ∧ dayNum y md.1 md.2 + 1 = dayNum y' md'.1 md'.2) ∨
    (y = y' ∧ md ≠ md' ∧ dayNum y' md'.1 md'.2 + 1 = dayNum y md.1 md.2) ∨
    dayNum y md.1 md.2 + 6 ≤ dayNum y' md'.1 md'.2 ∨ dayNum y' md'.1 md'.2 + 6 ≤ dayNum y md.1 md.2 := by
  obtain ⟨l, o, hl, hy, e, ho⟩ := uk_offset h y
  obtain ⟨l', o', hl', hy', e', ho'⟩ := uk_offset h' y'
  have r := ho.range hl
  have r' := ho'.range hl'
  rw [e, e']
  have hlt : y < y' ∨ y = y' ∨ y' < y := by omega
  rcases hlt with hlt | rfl | hlt
  · have := yearStart_le (show y + 1 ≤ y' by omega); omega
  · have : l = l' := by omega
    subst this
    unfold UkOffset at ho ho'
    rcases ho with ⟨rfl, rfl⟩ | ⟨rfl, rfl⟩ | ⟨rfl, rfl⟩ | ⟨rfl, rfl⟩ | ⟨rfl, rfl⟩ | ⟨rfl, rfl⟩ | ⟨rfl, rfl⟩ <;>
    rcases ho' with ⟨rfl, rfl⟩ | ⟨rfl, rfl⟩ | ⟨rfl, rfl⟩ | ⟨rfl, rfl⟩ | ⟨rfl, rfl⟩ | ⟨rfl, rfl⟩ | ⟨rfl, rfl⟩ <;>
      first
        | (left; exact ⟨rfl, rfl⟩)
        | (right; left; exact ⟨rfl, by decide, by omega⟩)
        | (right; right; left; exact ⟨rfl, by decide, by omega⟩)
        | (right; right; right; omega)
  · have := yearStart_le (show y' + 1 ≤ y by omega); omega

end TB
