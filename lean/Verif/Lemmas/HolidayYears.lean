import Verif.Lemmas.Holidays
/-! The place of the holidays within the year. -/
namespace TB

/-- The beginnings of the months used by the tables. -/
theorem months_fixed (y : Int) : ∃ l : Int, (l = 0 ∨ l = 1) ∧ yearStart (y + 1) = yearStart y + 365 + l ∧
    monthStart (monthOfYear y 1) = yearStart y ∧ monthStart (monthOfYear y 1 + 1) = yearStart y + 31 ∧
    monthStart (monthOfYear y 2) = yearStart y + 31 ∧ monthStart (monthOfYear y 2 + 1) = yearStart y + 59 + l ∧
    monthStart (monthOfYear y 5) = yearStart y + 120 + l ∧ monthStart (monthOfYear y 5 + 1) = yearStart y + 151 + l ∧
    monthStart (monthOfYear y 8) = yearStart y + 212 + l ∧ monthStart (monthOfYear y 8 + 1) = yearStart y + 243 + l ∧
    monthStart (monthOfYear y 9) = yearStart y + 243 + l ∧ monthStart (monthOfYear y 9 + 1) = yearStart y + 273 + l ∧
    monthStart (monthOfYear y 10) = yearStart y + 273 + l ∧ monthStart (monthOfYear y 10 + 1) = yearStart y + 304 + l ∧
    monthStart (monthOfYear y 11) = yearStart y + 304 + l ∧ monthStart (monthOfYear y 11 + 1) = yearStart y + 334 + l ∧
    dayNum y 3 22 = yearStart y + 80 + l ∧ dayNum y 4 25 = yearStart y + 114 + l := by
  refine ⟨if isLeap y then 1 else 0, by split <;> simp, ?_, ?_⟩
  · rw [yearStart_succ]; split <;> omega
  · have e : ∀ m : Int, 1 ≤ m → m ≤ 12 → (12 * (y - 1970) + (m - 1)) / 12 = y - 1970 ∧ (12 * (y - 1970) + (m - 1)) % 12 = m - 1 := by
      intro m h1 h2; omega
    have e2 : ∀ m : Int, 12 * (y - 1970) + (m - 1) + 1 = 12 * (y - 1970) + ((m + 1) - 1) := by intro m; omega
    have e' : (1970 + (y - 1970) : Int) = y := by omega
    unfold dayNum monthOfYear
    simp only [e2]
    unfold monthStart
    refine ⟨?_, ?_, ?_, ?_, ?_, ?_, ?_, ?_, ?_, ?_, ?_, ?_, ?_, ?_, ?_, ?_⟩ <;>
    · rw [(e _ (by decide) (by decide)).1, (e _ (by decide) (by decide)).2, e']
      simp only [daysBefore, cumDays]
      simp
      try omega

/-- A day of year `y` which is day number `o` of it. -/
def DayOfYear (y l o x : Int) : Prop := (l = 0 ∨ l = 1) ∧ yearStart (y + 1) = yearStart y + 365 + l ∧ x = yearStart y + o

theorem USFixed.offset {dno : List String} {y x : Int} (h : USFixed dno y x) :
    ∃ l o, DayOfYear y l o x ∧ (o = 0 ∨ o = 184 + l ∨ o = 314 + l ∨ o = 358 + l) := by
  obtain ⟨l, hl, hy, h1, h2, h3, h4, h5, h6, h7, h8, h9⟩ := dayNum_fixed y
  rcases h with ⟨_, h⟩ | ⟨_, h⟩ | ⟨_, h⟩ | ⟨_, h⟩
  · exact ⟨l, 0, ⟨hl, hy, by omega⟩, .inl rfl⟩
  · exact ⟨l, 184 + l, ⟨hl, hy, by omega⟩, .inr (.inl rfl)⟩
  · exact ⟨l, 314 + l, ⟨hl, hy, by omega⟩, .inr (.inr (.inl rfl))⟩
  · exact ⟨l, 358 + l, ⟨hl, hy, by omega⟩, .inr (.inr (.inr rfl))⟩

theorem UKFixed.offset {country : String} {dno : List String} {y x : Int} (h : UKFixed country dno y x) :
    ∃ l o, DayOfYear y l o x ∧ (o = 0 ∨ o = 1 ∨ o = 75 + l ∨ o = 192 + l ∨ o = 333 + l ∨ o = 358 + l ∨ o = 359 + l) := by
  obtain ⟨l, hl, hy, h1, h2, h3, h4, h5, h6, h7, h8, h9⟩ := dayNum_fixed y
  rcases h with ⟨_, h⟩ | ⟨_, _, h⟩ | ⟨_, _, h⟩ | ⟨_, _, h⟩ | ⟨_, _, h⟩ | ⟨_, h⟩ | ⟨_, h⟩
  · exact ⟨l, 0, ⟨hl, hy, by omega⟩, .inl rfl⟩
  · exact ⟨l, 1, ⟨hl, hy, by omega⟩, .inr (.inl rfl)⟩
  · exact ⟨l, 75 + l, ⟨hl, hy, by omega⟩, .inr (.inr (.inl rfl))⟩
  · exact ⟨l, 192 + l, ⟨hl, hy, by omega⟩, .inr (.inr (.inr (.inl rfl)))⟩
  · exact ⟨l, 333 + l, ⟨hl, hy, by omega⟩, .inr (.inr (.inr (.inr (.inl rfl))))⟩
  · exact ⟨l, 358 + l, ⟨hl, hy, by omega⟩, .inr (.inr (.inr (.inr (.inr (.inl rfl)))))⟩
  · exact ⟨l, 359 + l, ⟨hl, hy, by omega⟩, .inr (.inr (.inr (.inr (.inr (.inr rfl)))))⟩

theorem IsNthWeekday.week {k wd n d : Int} (h : IsNthWeekday k wd n d) (hw0 : 0 ≤ wd) (hw1 : wd < 7) :
    (0 < n → monthStart k + 7 * (n - 1) ≤ d ∧ d ≤ monthStart k + 7 * (n - 1) + 6) ∧
    (n < 0 → monthStart (k + 1) + 7 * n ≤ d ∧ d ≤ monthStart (k + 1) + 7 * n + 6) := by
  constructor
  · intro hn
    obtain ⟨e, _⟩ := (isNthWeekday_pos hw0 hw1 hn).1 h
    unfold weekday at e; omega
  · intro hn
    obtain ⟨e, _⟩ := (isNthWeekday_neg hw0 hw1 hn).1 h
    unfold weekday at e; omega

theorem IsNthWeekday.posOffset {k wd n d Y b l lo hi : Int} (h : IsNthWeekday k wd n d) (hw0 : 0 ≤ wd) (hw1 : wd < 7) (hn : 0 < n)
    (hm : monthStart k = Y + b + l) (hlo : lo ≤ b + 7 * (n - 1)) (hhi : b + 7 * (n - 1) + 6 ≤ hi) : lo + l ≤ d - Y ∧ d - Y ≤ hi + l := by
  have := (h.week hw0 hw1).1 hn
  omega

theorem IsNthWeekday.negOffset {k wd n d Y b l lo hi : Int} (h : IsNthWeekday k wd n d) (hw0 : 0 ≤ wd) (hw1 : wd < 7) (hn : n < 0)
    (hm : monthStart (k + 1) = Y + b + l) (hlo : lo ≤ b + 7 * n) (hhi : b + 7 * n + 6 ≤ hi) : lo + l ≤ d - Y ∧ d - Y ≤ hi + l := by
  have := (h.week hw0 hw1).2 hn
  omega

theorem easter_offset {E Y l a b x : Int} (ha : a = Y + 80 + l) (hb : b = Y + 114 + l) (h : a ≤ E ∧ E ≤ b) (hx : x = E - 2 ∨ x = E + 1) :
    78 + l ≤ x - Y ∧ x - Y ≤ 115 + l := by omega

theorem shift_one {l x Y : Int} (h : 325 + l ≤ x - 1 - Y ∧ x - 1 - Y ≤ 331 + l) : 325 + l ≤ x - Y ∧ x - Y ≤ 332 + l := by omega

theorem USFloating.offset {dno : List String} {y x : Int} (h : USFloating dno y x) :
    ∃ l o, DayOfYear y l o x ∧ ((14 ≤ o ∧ o ≤ 20) ∨ (45 ≤ o ∧ o ≤ 51) ∨ (144 + l ≤ o ∧ o ≤ 150 + l) ∨ (243 + l ≤ o ∧ o ≤ 249 + l) ∨
      (280 + l ≤ o ∧ o ≤ 286 + l) ∨ (325 + l ≤ o ∧ o ≤ 332 + l)) := by
  obtain ⟨l, hl, hy, h1, h1', h2, h2', h5, h5', h8, h8', h9, h9', h10, h10', h11, h11', _, _⟩ := months_fixed y
  refine ⟨l, x - yearStart y, ⟨hl, hy, by omega⟩, ?_⟩
  rcases h with ⟨_, h⟩ | ⟨_, h⟩ | ⟨_, h⟩ | ⟨_, h⟩ | ⟨_, h⟩ | ⟨_, h⟩ | ⟨_, h⟩
  · have := h.posOffset (Y := yearStart y) (b := 0) (l := 0) (lo := 14) (hi := 20) (by decide) (by decide) (by decide) (h1.trans (by simp)) (by decide) (by decide)
    exact .inl (by simpa only [Int.add_zero] using this)
  · have := h.posOffset (Y := yearStart y) (b := 31) (l := 0) (lo := 45) (hi := 51) (by decide) (by decide) (by decide) (h2.trans (by simp)) (by decide) (by decide)
    exact .inr (.inl (by simpa only [Int.add_zero] using this))
  · exact .inr (.inr (.inl (h.negOffset (by decide) (by decide) (by decide) h5' (by decide) (by decide))))
  · exact .inr (.inr (.inr (.inl (h.posOffset (by decide) (by decide) (by decide) h9 (by decide) (by decide)))))
  · exact .inr (.inr (.inr (.inr (.inl (h.posOffset (by decide) (by decide) (by decide) h10 (by decide) (by decide))))))
  · exact .inr (.inr (.inr (.inr (.inr (h.posOffset (by decide) (by decide) (by decide) h11 (by decide) (by decide))))))
  · have := h.posOffset (lo := 325) (hi := 331) (by decide) (by decide) (by decide) h11 (by decide) (by decide)
    exact .inr (.inr (.inr (.inr (.inr (shift_one this)))))

theorem UKFloating.offset {country : String} {dno : List String} {y x : Int} (h : UKFloating country dno y x) :
    ∃ l o, DayOfYear y l o x ∧ ((78 + l ≤ o ∧ o ≤ 115 + l) ∨ (120 + l ≤ o ∧ o ≤ 126 + l) ∨ (144 + l ≤ o ∧ o ≤ 150 + l) ∨
      (212 + l ≤ o ∧ o ≤ 242 + l)) := by
  obtain ⟨l, hl, hy, h1, h1', h2, h2', h5, h5', h8, h8', h9, h9', h10, h10', h11, h11', e1, e2⟩ := months_fixed y
  refine ⟨l, x - yearStart y, ⟨hl, hy, by omega⟩, ?_⟩
  rcases h with ⟨_, h⟩ | ⟨_, h⟩ | ⟨_, _, h⟩ | ⟨_, _, h⟩ | ⟨_, h⟩ | ⟨_, _, h⟩
  · exact .inr (.inl (h.posOffset (by decide) (by decide) (by decide) h5 (by decide) (by decide)))
  · exact .inr (.inr (.inl (h.negOffset (by decide) (by decide) (by decide) h5' (by decide) (by decide))))
  · exact .inr (.inr (.inr (h.negOffset (by decide) (by decide) (by decide) h8' (by decide) (by decide))))
  · exact .inr (.inr (.inr (h.posOffset (by decide) (by decide) (by decide) h8 (by decide) (by decide))))
  · exact .inl (easter_offset e1 e2 (easter_bounds y) (.inl h))
  · exact .inl (easter_offset e1 e2 (easter_bounds y) (.inr h))

/-- The year and the number of a day within it are determined by the day. -/
theorem DayOfYear.unique {y y' l l' o o' x : Int} (h : DayOfYear y l o x) (h' : DayOfYear y' l' o' x)
    (ho : 0 ≤ o ∧ o < 365 + l) (ho' : 0 ≤ o' ∧ o' < 365 + l') : y = y' ∧ l = l' ∧ o = o' := by
  obtain ⟨h1, h2, h3⟩ := h
  obtain ⟨h1', h2', h3'⟩ := h'
  have : y < y' ∨ y = y' ∨ y' < y := by omega
  rcases this with hlt | rfl | hlt
  · have := yearStart_le (show y + 1 ≤ y' by omega); omega
  · omega
  · have := yearStart_le (show y' + 1 ≤ y by omega); omega

theorem us_fixed_floating {dno : List String} {y y' x : Int} (h : USFixed dno y x) (h' : USFloating dno y' x) : False := by
  obtain ⟨l, o, hd, ho⟩ := h.offset
  obtain ⟨l', o', hd', ho'⟩ := h'.offset
  have h1 := hd.1
  have h2 := hd'.1
  have := hd.unique hd' (by omega) (by omega)
  omega

theorem uk_fixed_floating {country : String} {dno : List String} {y y' x : Int} (h : UKFixed country dno y x) (h' : UKFloating country dno y' x) : False := by
  obtain ⟨l, o, hd, ho⟩ := h.offset
  obtain ⟨l', o', hd', ho'⟩ := h'.offset
  have h1 := hd.1
  have h2 := hd'.1
  have := hd.unique hd' (by omega) (by omega)
  omega

theorem us_fixed_oneOff {dno : List String} {y a b x : Int} (h : USFixed dno y x) (h' : USOneOff dno a b x) : False := by
  obtain ⟨l, o, hd, ho⟩ := h.offset
  have h1 := hd.1
  have hx : x = dayNum 2018 12 26 ∨ x = dayNum 2018 12 5 ∨ x = dayNum 2018 12 24 := by unfold USOneOff at h'; omega
  have : ∃ o', DayOfYear 2018 0 o' x ∧ (o' = 359 ∨ o' = 338 ∨ o' = 357) := by
    rcases hx with rfl | rfl | rfl
    · exact ⟨359, ⟨by omega, by decide, by decide⟩, by omega⟩
    · exact ⟨338, ⟨by omega, by decide, by decide⟩, by omega⟩
    · exact ⟨357, ⟨by omega, by decide, by decide⟩, by omega⟩
  obtain ⟨o', hd', ho'⟩ := this
  have := hd.unique hd' (by omega) (by omega)
  omega

theorem UKOneOff.offset {dno : List String} {a b x : Int} (h : UKOneOff dno a b x) :
    ∃ y l o, a ≤ y ∧ y ≤ b ∧ DayOfYear y l o x ∧ ((y = 2002 ∧ (o = 153 ∨ o = 154)) ∨ (y = 2011 ∧ o = 118) ∨ (y = 2012 ∧ (o = 155 ∨ o = 156))) ∧
      "royal" ∉ dno := by
  obtain ⟨hr, h⟩ := h
  rcases h with ⟨h1, h2, rfl | rfl⟩ | ⟨h1, h2, rfl⟩ | ⟨h1, h2, rfl | rfl⟩
  · exact ⟨2002, 0, 153, h1, h2, ⟨by omega, by decide, by decide⟩, by omega, hr⟩
  · exact ⟨2002, 0, 154, h1, h2, ⟨by omega, by decide, by decide⟩, by omega, hr⟩
  · exact ⟨2011, 0, 118, h1, h2, ⟨by omega, by decide, by decide⟩, by omega, hr⟩
  · exact ⟨2012, 1, 155, h1, h2, ⟨by omega, by decide, by decide⟩, by omega, hr⟩
  · exact ⟨2012, 1, 156, h1, h2, ⟨by omega, by decide, by decide⟩, by omega, hr⟩

theorem uk_fixed_oneOff {country : String} {dno : List String} {y a b x : Int} (h : UKFixed country dno y x) (h' : UKOneOff dno a b x) : False := by
  obtain ⟨l, o, hd, ho⟩ := h.offset
  obtain ⟨y', l', o', _, _, hd', ho', _⟩ := h'.offset
  have h1 := hd.1
  have h2 := hd'.1
  have := hd.unique hd' (by omega) (by omega)
  omega

end TB
