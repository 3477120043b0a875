import Verif.Lemmas.DaysOff
/-! The weekdays off of a year in the United States as a list. -/
namespace TB

def usFixedDays (a1 a2 a3 a4 : Bool) (y : Int) : List Int :=
  marked [(a1, dayNum y 1 1), (a2, dayNum y 7 4), (a3, dayNum y 11 11), (a4, dayNum y 12 25)]

/-- The weekday nearest to the holiday. -/
def observedNear (h : Int) : Int := if weekday h = 5 then h - 1 else if weekday h = 6 then h + 1 else h

def usMovingDays (b1 b2 b3 b4 b5 b6 b7 : Bool) (y : Int) : List Int :=
  onlyIf b1 (nthDays (monthOfYear y 1) 0 3) ++ (onlyIf b2 (nthDays (monthOfYear y 2) 0 3) ++ (onlyIf b3 (nthDays (monthOfYear y 5) 0 (-1)) ++
    (onlyIf b4 (nthDays (monthOfYear y 9) 0 1) ++ (onlyIf b5 (nthDays (monthOfYear y 10) 0 2) ++ (onlyIf b6 (nthDays (monthOfYear y 11) 3 4) ++
      onlyIf b7 ((nthDays (monthOfYear y 11) 3 4).map (· + 1)))))))

/-- The days from elsewhere: the Friday before the next New Year's day, and those added to 2018. -/
def usExtraDays (c1 c2 c3 c4 : Bool) (y : Int) : List Int :=
  onlyIf (c1 && decide (weekday (dayNum (y + 1) 1 1) = 5)) [dayNum (y + 1) 1 1 - 1] ++ (onlyIf (c2 && decide (y = 2018)) [dayNum 2018 12 5] ++
    (onlyIf (c3 && decide (y = 2018)) [dayNum 2018 12 24] ++ onlyIf (c4 && decide (y = 2018)) [dayNum 2018 12 26]))

def usAllDays (a1 a2 a3 a4 b1 b2 b3 b4 b5 b6 b7 c1 c2 c3 c4 : Bool) (y : Int) : List Int :=
  ((usFixedDays a1 a2 a3 a4 y).map observedNear).filter (fun x => decide (dayNum y 1 1 ≤ x)) ++
    (usMovingDays b1 b2 b3 b4 b5 b6 b7 y ++ usExtraDays c1 c2 c3 c4 y)

set_option maxRecDepth 100000 in
theorem us_nodup : ∀ y ∈ intRange 2000 2021,
    (usAllDays true true true true true true true true true true true true true true true y).Nodup := by decide +kernel

theorem us_weekdays : ∀ y ∈ intRange 2000 2021,
    ∀ x ∈ usMovingDays true true true true true true true y ++ usExtraDays true true true true y, weekday x < 5 := by decide +kernel

theorem onlyIf_sub (b c : Bool) (l : List Int) : (onlyIf (b && c) l).Sublist (onlyIf (true && c) l) := by
  cases b
  · exact List.nil_sublist _
  · exact List.Sublist.refl _

theorem usMoving_sublist (b1 b2 b3 b4 b5 b6 b7 : Bool) (y : Int) :
    (usMovingDays b1 b2 b3 b4 b5 b6 b7 y).Sublist (usMovingDays true true true true true true true y) :=
  (onlyIf_sublist _ _).append ((onlyIf_sublist _ _).append ((onlyIf_sublist _ _).append ((onlyIf_sublist _ _).append ((onlyIf_sublist _ _).append
    ((onlyIf_sublist _ _).append (onlyIf_sublist _ _))))))

theorem usExtra_sublist (c1 c2 c3 c4 : Bool) (y : Int) : (usExtraDays c1 c2 c3 c4 y).Sublist (usExtraDays true true true true y) :=
  (onlyIf_sub _ _ _).append ((onlyIf_sub _ _ _).append ((onlyIf_sub _ _ _).append (onlyIf_sub _ _ _)))

theorem marked_sub {l m : List (Bool × Int)} (h : l.map (fun p => p.2) = m.map (fun p => p.2)) (hm : ∀ p ∈ m, p.1 = true) : (marked l).Sublist (marked m) := by
  have e : marked m = m.map (fun p => p.2) := by
    unfold marked
    rw [List.filter_eq_self.2 hm]
  rw [e, ← h]
  exact List.filter_sublist.map _

theorem us_all_nodup (a1 a2 a3 a4 b1 b2 b3 b4 b5 b6 b7 c1 c2 c3 c4 : Bool) {y : Int} (hy : y ∈ intRange 2000 2021) :
    (usAllDays a1 a2 a3 a4 b1 b2 b3 b4 b5 b6 b7 c1 c2 c3 c4 y).Nodup := by
  refine List.Nodup.sublist ?_ (us_nodup y hy)
  refine List.Sublist.append ?_ ((usMoving_sublist _ _ _ _ _ _ _ _).append (usExtra_sublist _ _ _ _ _))
  apply List.Sublist.filter
  apply List.Sublist.map
  exact marked_sub rfl (by simp)

theorem us_moving_length : ∀ y ∈ intRange 2000 2021, (nthDays (monthOfYear y 1) 0 3).length = 1 ∧ (nthDays (monthOfYear y 2) 0 3).length = 1 ∧
    (nthDays (monthOfYear y 5) 0 (-1)).length = 1 ∧ (nthDays (monthOfYear y 9) 0 1).length = 1 ∧ (nthDays (monthOfYear y 10) 0 2).length = 1 ∧
    (nthDays (monthOfYear y 11) 3 4).length = 1 := by
  decide +kernel

theorem us_fixed_near : ∀ y ∈ intRange 2000 2021, (dayNum y 1 1 ≤ observedNear (dayNum y 1 1) ↔ weekday (dayNum y 1 1) ≠ 5) ∧
    dayNum y 1 1 ≤ observedNear (dayNum y 7 4) ∧ dayNum y 1 1 ≤ observedNear (dayNum y 11 11) ∧ dayNum y 1 1 ≤ observedNear (dayNum y 12 25) := by
  decide +kernel

theorem observedNear_weekday (h : Int) : weekday (observedNear h) < 5 := by
  have hr := weekday_range h
  have h1 := weekday_next h 1
  have h2 := weekday_next h (-1)
  have e : h + -1 = h - 1 := by omega
  rw [e] at h2
  unfold observedNear
  split
  · omega
  · split <;> omega

theorem observedNear_iff {given : Int → Prop} {l : List Int} (hl : ∀ x, x ∈ l ↔ given x) (x : Int) :
    (weekday x < 5 ∧ (given x ∨ ∃ h, given h ∧ NearestWeekday h x)) ↔ x ∈ l.map observedNear := by
  constructor
  · rintro ⟨hw, hg | ⟨h, hg, hs⟩⟩
    · refine List.mem_map.2 ⟨x, (hl x).2 hg, ?_⟩
      unfold observedNear
      rw [if_neg (by omega), if_neg (by omega)]
    · refine List.mem_map.2 ⟨h, (hl h).2 hg, ?_⟩
      unfold observedNear
      rcases hs with ⟨h1, h2⟩ | ⟨h1, h2⟩
      · rw [if_pos h1]; exact h2.symm
      · rw [if_neg (by omega), if_pos h1]; exact h2.symm
  · intro hx
    obtain ⟨h, hm, rfl⟩ := List.mem_map.1 hx
    refine ⟨observedNear_weekday h, ?_⟩
    have hg := (hl h).1 hm
    unfold observedNear
    split
    · rename_i h1; exact .inr ⟨h, hg, .inl ⟨h1, rfl⟩⟩
    · split
      · rename_i h1; exact .inr ⟨h, hg, .inr ⟨h1, rfl⟩⟩
      · exact .inl hg

section
variable (dno : List String) (first last y : Int)

def usFixedOf : List Int :=
  usFixedDays (decide ("new_year" ∉ dno)) (decide ("independence" ∉ dno)) (decide ("veterans" ∉ dno)) (decide ("christmas" ∉ dno)) y

theorem mem_usFixedOf (x : Int) : x ∈ usFixedOf dno y ↔ USFixed dno y x := by
  unfold usFixedOf usFixedDays USFixed
  rw [mem_marked]
  simp only [List.mem_cons, Prod.mk.injEq, List.not_mem_nil, or_false, true_eq_decide_iff]

def usMovingOf : List Int :=
  usMovingDays (decide ("mlk" ∉ dno)) (decide ("presidents" ∉ dno)) (decide ("memorial" ∉ dno)) (decide ("labor" ∉ dno)) (decide ("columbus" ∉ dno))
    (decide ("thanksgiving" ∉ dno)) (decide ("black_friday" ∉ dno)) y

theorem mem_usMovingOf (x : Int) : x ∈ usMovingOf dno y ↔ USFloating dno y x := by
  unfold usMovingOf usMovingDays USFloating
  have hs : (x ∈ (nthDays (monthOfYear y 11) 3 4).map (· + 1)) ↔ IsNthWeekday (monthOfYear y 11) 3 4 (x - 1) := by
    rw [List.mem_map, ← mem_nthDays]
    constructor
    · rintro ⟨z, hz, rfl⟩; rw [show z + 1 - 1 = z by omega]; exact hz
    · intro h; exact ⟨_, h, by omega⟩
  simp only [List.mem_append, mem_onlyIf, decide_eq_true_iff, mem_nthDays, hs]

def usExtraOf : List Int :=
  usExtraDays (decide ("new_year" ∉ dno ∧ y + 1 ≤ last)) (decide ("one_off" ∉ dno)) (decide ("xmas_additional_day" ∉ dno))
    (decide ("xmas_additional_day" ∉ dno ∧ first ≤ 2014)) y

theorem mem_usExtraOf (x : Int) : x ∈ usExtraOf dno first last y ↔
    (("new_year" ∉ dno ∧ y + 1 ≤ last) ∧ weekday (dayNum (y + 1) 1 1) = 5 ∧ x = dayNum (y + 1) 1 1 - 1) ∨
    ("one_off" ∉ dno ∧ y = 2018 ∧ x = dayNum 2018 12 5) ∨ ("xmas_additional_day" ∉ dno ∧ y = 2018 ∧ x = dayNum 2018 12 24) ∨
    (("xmas_additional_day" ∉ dno ∧ first ≤ 2014) ∧ y = 2018 ∧ x = dayNum 2018 12 26) := by
  unfold usExtraOf usExtraDays
  simp only [List.mem_append, mem_onlyIf, Bool.and_eq_true, decide_eq_true_iff, List.mem_singleton, and_assoc]

/-- The weekdays off of a year. -/
def usOff : List Int :=
  ((usFixedOf dno y).map observedNear).filter (fun x => decide (dayNum y 1 1 ≤ x)) ++ (usMovingOf dno y ++ usExtraOf dno first last y)

variable {y}

theorem usOff_nodup (hy : y ∈ intRange 2000 2021) : (usOff dno first last y).Nodup := us_all_nodup _ _ _ _ _ _ _ _ _ _ _ _ _ _ _ hy

variable {first last}

theorem mem_usOff (hy : y ∈ intRange 2000 2021) (h1 : first ≤ y) (h2 : y ≤ last) (x : Int) :
    x ∈ usOff dno first last y ↔ x ∈ weekdaysOf y ∧ ∃ z, first ≤ z ∧ z ≤ last ∧ USOfYear dno true z x := by
  have hw : x ∈ usMovingOf dno y ++ usExtraOf dno first last y → weekday x < 5 := fun h =>
    us_weekdays y hy x (((usMoving_sublist _ _ _ _ _ _ _ _).append (usExtra_sublist _ _ _ _ _)).subset h)
  have hn : x ∈ (usFixedOf dno y).map observedNear ↔ _ := (observedNear_iff (mem_usFixedOf dno y) x).symm
  have he : x ∈ usExtraOf dno first last y → InYear y x := by
    intro h
    rcases (mem_usExtraOf dno first last y x).1 h with ⟨_, _, rfl⟩ | ⟨_, rfl, rfl⟩ | ⟨_, rfl, rfl⟩ | ⟨_, rfl, rfl⟩
    · obtain ⟨l, hl, hs, _⟩ := dayNum_ru y
      rw [newYear_start]
      unfold InYear
      omega
    all_goals unfold InYear; decide
  rw [mem_weekdaysOf]
  constructor
  · intro h
    unfold usOff at h
    rcases List.mem_append.1 h with h | h
    · rw [List.mem_filter, decide_eq_true_iff, hn] at h
      obtain ⟨⟨q1, q2⟩, q3⟩ := h
      have hu : USOfYear dno true y x := q2.elim .inl (fun q => .inr (.inl ⟨rfl, q⟩))
      refine ⟨⟨?_, q1⟩, y, h1, h2, hu⟩
      rcases q2 with q2 | ⟨h, q2, q4⟩
      · exact q2.inYear
      · rcases hu.inYear with q | ⟨_, _, q, _⟩ | ⟨rfl, _, rfl⟩
        · exact q
        · rw [newYear_start] at q3; omega
        · have := q2.inYear
          unfold InYear at this
          have e1 : yearStart (2014 + 1) + 1000 < dayNum 2018 12 26 := by decide
          rcases q4 with ⟨_, q4⟩ | ⟨_, q4⟩ <;> omega
    · have hwx := hw h
      rcases List.mem_append.1 h with h | h
      · rw [mem_usMovingOf] at h
        exact ⟨⟨h.inYear, hwx⟩, y, h1, h2, .inr (.inr (.inl h))⟩
      · refine ⟨⟨he h, hwx⟩, ?_⟩
        rcases (mem_usExtraOf dno first last y x).1 h with ⟨⟨q1, q2⟩, q3, q4⟩ | ⟨q1, q2, q3⟩ | ⟨q1, q2, q3⟩ | ⟨⟨q1, q2⟩, q3, q4⟩
        · exact ⟨y + 1, by omega, q2, .inr (.inl ⟨rfl, _, .inl ⟨q1, rfl⟩, .inl ⟨q3, q4⟩⟩)⟩
        · exact ⟨y, h1, h2, .inr (.inr (.inr (.inr (.inl ⟨q2, q1, q3⟩))))⟩
        · exact ⟨y, h1, h2, .inr (.inr (.inr (.inr (.inr ⟨q2, q1, q3⟩))))⟩
        · exact ⟨2014, q2, by omega, .inr (.inr (.inr (.inl ⟨rfl, q1, q4⟩)))⟩
  · rintro ⟨⟨hi, hwx⟩, z, z1, z2, hu⟩
    unfold usOff
    rw [List.mem_append, List.mem_append, List.mem_filter, decide_eq_true_iff, hn, mem_usMovingOf, mem_usExtraOf]
    rcases hu.inYear with q | ⟨_, q1, q2, q3⟩ | ⟨rfl, q1, rfl⟩
    · have := q.unique hi
      subst this
      rcases hu with hu | ⟨_, hu⟩ | hu | ⟨rfl, _, rfl⟩ | ⟨p1, p2, p3⟩ | ⟨p1, p2, p3⟩
      · exact .inl ⟨⟨hwx, .inl hu⟩, by rw [newYear_start]; exact hi.1⟩
      · exact .inl ⟨⟨hwx, .inr hu⟩, by rw [newYear_start]; exact hi.1⟩
      · exact .inr (.inl hu)
      · exact absurd q (by unfold InYear; decide)
      · exact .inr (.inr (.inr (.inl ⟨p2, p1, p3⟩)))
      · exact .inr (.inr (.inr (.inr (.inl ⟨p2, p1, p3⟩))))
    · have e : z - 1 = y := by
        apply InYear.unique (x := x) _ hi
        obtain ⟨l, hl, hs, _⟩ := dayNum_ru (z - 1)
        rw [show z - 1 + 1 = z by omega] at hs
        unfold InYear
        rw [show z - 1 + 1 = z by omega]
        omega
      have : z = y + 1 := by omega
      subst this
      exact .inr (.inr (.inl ⟨⟨q1, z2⟩, by rw [newYear_start]; exact q3, by rw [newYear_start]; exact q2⟩))
    · have e : y = 2018 := by
        apply InYear.unique hi
        unfold InYear; decide
      exact .inr (.inr (.inr (.inr (.inr ⟨⟨q1, z1⟩, e, rfl⟩))))

theorem onlyIf_length (p : Prop) [Decidable p] (l : List Int) (hl : l.length = 1) : ((onlyIf (decide p) l).length : Int) = if p then 1 else 0 := by
  unfold onlyIf
  by_cases h : p
  · simp [h, hl]
  · simp [h]

theorem usOff_length (hy : y ∈ intRange 2000 2021) : ((usOff dno first last y).length : Int) = usDaysOff dno first last y := by
  obtain ⟨m1, m2, m3, m4, m5, m6⟩ := us_moving_length y hy
  obtain ⟨f1, f2, f3, f4⟩ := us_fixed_near y hy
  have hm : ((usMovingOf dno y).length : Int) = (if "mlk" ∉ dno then 1 else 0) + (if "presidents" ∉ dno then 1 else 0) +
      (if "memorial" ∉ dno then 1 else 0) + (if "labor" ∉ dno then 1 else 0) + (if "columbus" ∉ dno then 1 else 0) +
      (if "thanksgiving" ∉ dno then 1 else 0) + (if "black_friday" ∉ dno then 1 else 0) := by
    unfold usMovingOf usMovingDays
    simp only [List.length_append, Int.natCast_add]
    rw [onlyIf_length _ _ m1, onlyIf_length _ _ m2, onlyIf_length _ _ m3, onlyIf_length _ _ m4, onlyIf_length _ _ m5, onlyIf_length _ _ m6,
      onlyIf_length _ _ (by rw [List.length_map]; exact m6)]
    omega
  have hx : ((usExtraOf dno first last y).length : Int) =
      (if "new_year" ∉ dno ∧ weekday (dayNum (y + 1) 1 1) = 5 ∧ y + 1 ≤ last then 1 else 0)
      + (if y = 2018 ∧ "one_off" ∉ dno then 1 else 0)
      + (if y = 2018 ∧ "xmas_additional_day" ∉ dno then 1 else 0)
      + (if y = 2018 ∧ "xmas_additional_day" ∉ dno ∧ first ≤ 2014 then 1 else 0) := by
    unfold usExtraOf usExtraDays
    simp only [List.length_append, Int.natCast_add, ← Bool.decide_and]
    rw [onlyIf_length _ _ rfl, onlyIf_length _ _ rfl, onlyIf_length _ _ rfl, onlyIf_length _ _ rfl]
    have e1 : (("new_year" ∉ dno ∧ y + 1 ≤ last) ∧ weekday (dayNum (y + 1) 1 1) = 5) ↔ ("new_year" ∉ dno ∧ weekday (dayNum (y + 1) 1 1) = 5 ∧ y + 1 ≤ last) :=
      ⟨fun h => ⟨h.1.1, h.2, h.1.2⟩, fun h => ⟨⟨h.1, h.2.2⟩, h.2.1⟩⟩
    simp only [e1, and_comm (b := y = 2018)]
    omega
  have hf : ((((usFixedOf dno y).map observedNear).filter (fun x => decide (dayNum y 1 1 ≤ x))).length : Int) =
      (if "new_year" ∉ dno then 1 else 0) - (if "new_year" ∉ dno ∧ weekday (dayNum y 1 1) = 5 then 1 else 0) + (if "independence" ∉ dno then 1 else 0)
      + (if "veterans" ∉ dno then 1 else 0) + (if "christmas" ∉ dno then 1 else 0) := by
    have e : ∀ (p : Prop) [Decidable p] (d : Int) (l : List (Bool × Int)),
        (((((marked ((decide p, d) :: l)).map observedNear).filter (fun x => decide (dayNum y 1 1 ≤ x))).length : Nat) : Int) =
        (if p ∧ dayNum y 1 1 ≤ observedNear d then 1 else 0) + ((((marked l).map observedNear).filter (fun x => decide (dayNum y 1 1 ≤ x))).length : Nat) := by
      intro p _ d l
      unfold marked
      by_cases h : p
      · by_cases h' : dayNum y 1 1 ≤ observedNear d
        · simp [h, h']; omega
        · simp [h, h']
      · simp [h]
    unfold usFixedOf usFixedDays
    rw [e, e, e, e]
    simp only [f1, f2, f3, f4, and_true]
    have : (if "new_year" ∉ dno ∧ weekday (dayNum y 1 1) ≠ 5 then (1 : Int) else 0) =
        (if "new_year" ∉ dno then 1 else 0) - (if "new_year" ∉ dno ∧ weekday (dayNum y 1 1) = 5 then 1 else 0) := by
      by_cases h : "new_year" ∉ dno
      · by_cases h' : weekday (dayNum y 1 1) = 5
        · rw [if_neg (fun q => q.2 h'), if_pos h, if_pos ⟨h, h'⟩]; rfl
        · rw [if_pos ⟨h, h'⟩, if_pos h, if_neg (fun q => h' q.2)]; rfl
      · rw [if_neg (fun q => h q.1), if_neg h, if_neg (fun q => h q.1)]; rfl
    rw [this]
    have e0 : (((marked []).map observedNear).filter (fun x => decide (dayNum y 1 1 ≤ x))).length = 0 := rfl
    rw [e0]
    omega
  unfold usOff usDaysOff
  simp only [List.length_append, Int.natCast_add]
  rw [hf, hm, hx]
  unfold usNames
  simp only [names_cons]
  simp only [List.filter_nil, List.length_nil]
  omega

end

end TB
