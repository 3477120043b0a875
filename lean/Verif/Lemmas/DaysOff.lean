import Verif.Spec.DaysOff
import Verif.Lemmas.CalendarYears
/-! The weekdays off of a year as lists. -/
namespace TB

instance (k wd n d : Int) : Decidable (IsNthWeekday k wd n d) := by unfold IsNthWeekday; infer_instance

/-- Two lists without repetition which have the same members have the same length. -/
theorem length_of_nodup {l m : List Int} (h1 : l.Nodup) (h2 : m.Nodup) (h : ∀ x, x ∈ l ↔ x ∈ m) : l.length = m.length := by
  have : l.Perm m := by
    rw [List.perm_iff_count]
    intro x
    rw [List.Nodup.count h1, List.Nodup.count h2]
    simp only [h x]
  exact this.length_eq

/-- Those which are marked. -/
def marked (l : List (Bool × Int)) : List Int := (l.filter (fun p => p.1)).map (fun p => p.2)

theorem mem_marked {l : List (Bool × Int)} {x : Int} : x ∈ marked l ↔ (true, x) ∈ l := by
  unfold marked
  simp only [List.mem_map, List.mem_filter]
  constructor
  · rintro ⟨⟨b, z⟩, ⟨h1, h2⟩, h3⟩
    simp only at h2 h3
    rw [h2, h3] at h1
    exact h1
  · intro h; exact ⟨(true, x), ⟨h, rfl⟩, rfl⟩

/-- The n-th such weekdays of a month (one at most). -/
def nthDays (k wd n : Int) : List Int := (intRange (monthStart k) (monthStart (k + 1))).filter (fun x => decide (IsNthWeekday k wd n x))

theorem mem_nthDays {k wd n x : Int} : x ∈ nthDays k wd n ↔ IsNthWeekday k wd n x := by
  unfold nthDays
  rw [List.mem_filter, mem_intRange, decide_eq_true_iff]
  constructor
  · exact fun h => h.2
  · exact fun h => ⟨⟨h.1, h.2.1⟩, h⟩

/-- The days of `l` if so. -/
def onlyIf (b : Bool) (l : List Int) : List Int := if b then l else []

theorem mem_onlyIf {b : Bool} {l : List Int} {x : Int} : x ∈ onlyIf b l ↔ b = true ∧ x ∈ l := by
  unfold onlyIf; cases b <;> simp

theorem onlyIf_sublist (b : Bool) (l : List Int) : (onlyIf b l).Sublist (onlyIf true l) := by
  cases b
  · exact List.nil_sublist _
  · exact List.Sublist.refl _

/-! ## UK -/

def ukFixedDays (a1 a2 a3 a4 a5 a6 a7 : Bool) (y : Int) : List Int :=
  marked [(a1, dayNum y 1 1), (a2, dayNum y 1 2), (a3, dayNum y 3 17), (a4, dayNum y 7 12), (a5, dayNum y 11 30), (a6, dayNum y 12 25), (a7, dayNum y 12 26)]

/-- The weekday which a holiday gives off. -/
def observedNext (l : List Int) (h : Int) : Int :=
  if weekday h = 5 then h + 2
  else if weekday h = 6 then (if l.contains (h - 1) || l.contains (h + 1) then h + 2 else h + 1)
  else h

def ukMovingDays (sco b1 b2 b3 b4 b5 : Bool) (y : Int) : List Int :=
  (onlyIf b1 (nthDays (monthOfYear y 5) 0 1) ++ onlyIf b2 (nthDays (monthOfYear y 5) 0 (-1)) ++
    onlyIf b3 (if sco then nthDays (monthOfYear y 8) 0 1 else nthDays (monthOfYear y 8) 0 (-1)) ++
    onlyIf b4 [easterDay false y - 2] ++ onlyIf b5 [easterDay false y + 1]).filter
      (fun x => decide (x ≠ dayNum 2002 5 27 ∧ x ≠ dayNum 2012 5 28))

def ukRoyalDays (y : Int) : List Int :=
  if y = 2002 then [dayNum 2002 6 3, dayNum 2002 6 4] else if y = 2011 then [dayNum 2011 4 29]
  else if y = 2012 then [dayNum 2012 6 4, dayNum 2012 6 5] else []

/-- No two holidays of the year give the same weekday off. -/
def UKNodup (y : Int) : Prop := ∀ sco a1 a2 a3 a4 a5 a6 a7 : Bool,
    ((ukFixedDays a1 a2 a3 a4 a5 a6 a7 y).map (observedNext (ukFixedDays a1 a2 a3 a4 a5 a6 a7 y)) ++
      (ukMovingDays sco true true true true true y ++ onlyIf true (ukRoyalDays y))).Nodup

instance (y : Int) : Decidable (UKNodup y) := by unfold UKNodup; infer_instance

set_option maxRecDepth 100000 in
theorem uk_nodup_2000 : ∀ y ∈ intRange 2000 2003, UKNodup y := by decide +kernel

set_option maxRecDepth 100000 in
theorem uk_nodup_2003 : ∀ y ∈ intRange 2003 2006, UKNodup y := by decide +kernel

set_option maxRecDepth 100000 in
theorem uk_nodup_2006 : ∀ y ∈ intRange 2006 2009, UKNodup y := by decide +kernel

set_option maxRecDepth 100000 in
theorem uk_nodup_2009 : ∀ y ∈ intRange 2009 2012, UKNodup y := by decide +kernel

set_option maxRecDepth 100000 in
theorem uk_nodup_2012 : ∀ y ∈ intRange 2012 2015, UKNodup y := by decide +kernel

set_option maxRecDepth 100000 in
theorem uk_nodup_2015 : ∀ y ∈ intRange 2015 2018, UKNodup y := by decide +kernel

set_option maxRecDepth 100000 in
theorem uk_nodup_2018 : ∀ y ∈ intRange 2018 2021, UKNodup y := by decide +kernel

theorem uk_nodup (y : Int) (hy : y ∈ intRange 2000 2021) : UKNodup y := by
  rw [mem_intRange] at hy
  by_cases h2003 : y < 2003
  · exact uk_nodup_2000 y ((mem_intRange _ _ _).2 (by omega))
  by_cases h2006 : y < 2006
  · exact uk_nodup_2003 y ((mem_intRange _ _ _).2 (by omega))
  by_cases h2009 : y < 2009
  · exact uk_nodup_2006 y ((mem_intRange _ _ _).2 (by omega))
  by_cases h2012 : y < 2012
  · exact uk_nodup_2009 y ((mem_intRange _ _ _).2 (by omega))
  by_cases h2015 : y < 2015
  · exact uk_nodup_2012 y ((mem_intRange _ _ _).2 (by omega))
  by_cases h2018 : y < 2018
  · exact uk_nodup_2015 y ((mem_intRange _ _ _).2 (by omega))
  exact uk_nodup_2018 y ((mem_intRange _ _ _).2 (by omega))

theorem uk_weekdays : ∀ y ∈ intRange 2000 2021, ∀ sco : Bool, ∀ x ∈ ukMovingDays sco true true true true true y ++ ukRoyalDays y, weekday x < 5 := by
  decide +kernel

theorem uk_moving_length : ∀ y ∈ intRange 2000 2021, ∀ sco b1 b2 b3 b4 b5 : Bool,
    ((ukMovingDays sco b1 b2 b3 b4 b5 y).length : Int) =
      (if b1 then 1 else 0) + (if b2 ∧ y ≠ 2002 ∧ y ≠ 2012 then 1 else 0) + (if b3 then 1 else 0) + (if b4 then 1 else 0) + (if b5 then 1 else 0) := by
  decide +kernel

theorem weekday_range (x : Int) : 0 ≤ weekday x ∧ weekday x < 7 := by unfold weekday; omega

theorem weekday_next (x k : Int) : weekday (x + k) = (weekday x + k) % 7 := by unfold weekday; omega

theorem observedNext_weekday (l : List Int) (h : Int) : weekday (observedNext l h) < 5 := by
  have hr := weekday_range h
  have h1 := weekday_next h 1
  have h2 := weekday_next h 2
  unfold observedNext
  split
  · omega
  · split
    · split <;> omega
    · omega

/-- The holidays on fixed dates, with the days they give instead of those on the weekend. -/
theorem observedNext_iff {given : Int → Prop} {l : List Int} (hl : ∀ x, x ∈ l ↔ given x) (x : Int) :
    (weekday x < 5 ∧ (given x ∨ ∃ h, given h ∧ SubstituteDay given h x)) ↔ x ∈ l.map (observedNext l) := by
  have hc : ∀ z, l.contains z = true ↔ given z := fun z => by rw [List.contains_iff_mem]; exact hl z
  constructor
  · rintro ⟨hw, hg | ⟨h, hg, hs⟩⟩
    · refine List.mem_map.2 ⟨x, (hl x).2 hg, ?_⟩
      unfold observedNext
      rw [if_neg (by omega), if_neg (by omega)]
    · refine List.mem_map.2 ⟨h, (hl h).2 hg, ?_⟩
      unfold observedNext
      rcases hs with ⟨h1, h2⟩ | ⟨h1, h2, h3, h4⟩ | ⟨h1, h2, h4⟩
      · rw [if_pos h1]; exact h2.symm
      · rw [if_neg (by omega), if_pos h1, if_neg]
        · exact h4.symm
        · rw [Bool.or_eq_true, hc, hc]
          exact fun hh => hh.elim h2 h3
      · rw [if_neg (by omega), if_pos h1, if_pos]
        · exact h4.symm
        · rw [Bool.or_eq_true, hc, hc]
          exact h2
  · intro hx
    obtain ⟨h, hm, rfl⟩ := List.mem_map.1 hx
    refine ⟨observedNext_weekday l h, ?_⟩
    have hg := (hl h).1 hm
    unfold observedNext
    split
    · rename_i h1; exact .inr ⟨h, hg, .inl ⟨h1, rfl⟩⟩
    · split
      · rename_i h1
        split
        · rename_i h2
          rw [Bool.or_eq_true, hc, hc] at h2
          exact .inr ⟨h, hg, .inr (.inr ⟨h1, h2, rfl⟩)⟩
        · rename_i h2
          rw [Bool.or_eq_true, hc, hc] at h2
          exact .inr ⟨h, hg, .inr (.inl ⟨h1, fun q => h2 (.inl q), fun q => h2 (.inr q), rfl⟩)⟩
      · exact .inl hg

theorem newYear_start (y : Int) : dayNum y 1 1 = yearStart y := by
  obtain ⟨_, _, _, h, _⟩ := dayNum_ru y
  rw [h 1]; omega

theorem mem_weekdaysOf {y x : Int} : x ∈ weekdaysOf y ↔ InYear y x ∧ weekday x < 5 := by
  unfold weekdaysOf
  have : daysOfYear y = intRange (dayNum y 1 1) (dayNum (y + 1) 1 1) := rfl
  rw [List.mem_filter, this, mem_intRange, decide_eq_true_iff, newYear_start, newYear_start]
  rfl

section
variable (country : String) (dno : List String) (y : Int)

def ukFixedOf : List Int :=
  ukFixedDays (decide ("new_year" ∉ dno)) (decide ("new_year2" ∉ dno ∧ country ≠ "england" ∧ country ≠ "northern_ireland"))
    (decide ("st_patricks" ∉ dno ∧ country ≠ "england" ∧ country ≠ "scotland")) (decide ("orangemens" ∉ dno ∧ country ≠ "england" ∧ country ≠ "scotland"))
    (decide ("st_andrews" ∉ dno ∧ country ≠ "england" ∧ country ≠ "northern_ireland")) (decide ("christmas" ∉ dno)) (decide ("boxing" ∉ dno)) y

theorem mem_ukFixedOf (x : Int) : x ∈ ukFixedOf country dno y ↔ UKFixed country dno y x := by
  unfold ukFixedOf ukFixedDays UKFixed
  rw [mem_marked]
  simp only [List.mem_cons, Prod.mk.injEq, List.not_mem_nil, or_false, true_eq_decide_iff, and_assoc]

def ukMovingOf : List Int :=
  ukMovingDays (decide (country = "scotland")) (decide ("early_may" ∉ dno)) (decide ("spring" ∉ dno)) (decide ("summer" ∉ dno))
    (decide ("good_friday" ∉ dno)) (decide ("easter_monday" ∉ dno ∧ country ≠ "scotland")) y

theorem mem_ukMovingOf (x : Int) : x ∈ ukMovingOf country dno y ↔ (UKFloating country dno y x ∧ x ≠ dayNum 2002 5 27 ∧ x ≠ dayNum 2012 5 28) := by
  unfold ukMovingOf ukMovingDays UKFloating
  rw [List.mem_filter]
  simp only [decide_eq_true_iff (p := x ≠ dayNum 2002 5 27 ∧ x ≠ dayNum 2012 5 28)]
  apply and_congr_left
  intro _
  simp only [List.mem_append, mem_onlyIf, decide_eq_true_iff, List.mem_singleton, mem_nthDays]
  by_cases hs : country = "scotland"
  · simp only [hs, if_true, mem_nthDays]
    simp
    grind
  · simp only [hs, if_false, mem_nthDays]
    simp
    grind

def ukRoyalOf : List Int := onlyIf (decide ("royal" ∉ dno)) (ukRoyalDays y)

theorem mem_ukRoyalOf (x : Int) : x ∈ ukRoyalOf dno y ↔ UKRoyal dno y x := by
  unfold ukRoyalOf ukRoyalDays UKRoyal
  rw [mem_onlyIf, decide_eq_true_iff]
  apply and_congr_right
  intro _
  by_cases h1 : y = 2002
  · subst h1; simp
  · by_cases h2 : y = 2011
    · subst h2; simp
    · by_cases h3 : y = 2012
      · subst h3; simp
      · simp [h1, h2, h3]

/-- The weekdays off of a year. -/
def ukOff : List Int :=
  (ukFixedOf country dno y).map (observedNext (ukFixedOf country dno y)) ++ (ukMovingOf country dno y ++ ukRoyalOf dno y)

theorem ukMoving_sublist (sco b1 b2 b3 b4 b5 : Bool) : (ukMovingDays sco b1 b2 b3 b4 b5 y).Sublist (ukMovingDays sco true true true true true y) := by
  unfold ukMovingDays
  apply List.Sublist.filter
  exact ((((onlyIf_sublist _ _).append (onlyIf_sublist _ _)).append (onlyIf_sublist _ _)).append (onlyIf_sublist _ _)).append (onlyIf_sublist _ _)

variable {y}

theorem ukOff_nodup (hy : y ∈ intRange 2000 2021) : (ukOff country dno y).Nodup := by
  refine List.Nodup.sublist (l₂ := (ukFixedOf country dno y).map (observedNext (ukFixedOf country dno y)) ++
    (ukMovingDays (decide (country = "scotland")) true true true true true y ++ onlyIf true (ukRoyalDays y))) ?_ (uk_nodup y hy (decide (country = "scotland")) _ _ _ _ _ _ _)
  exact (List.Sublist.refl _).append ((ukMoving_sublist _ _ _ _ _ _ _).append (onlyIf_sublist _ _))

theorem mem_ukOff (hy : y ∈ intRange 2000 2021) (x : Int) : x ∈ ukOff country dno y ↔ x ∈ weekdaysOf y ∧ UKOfYear country dno true y x := by
  have key : x ∈ ukOff country dno y ↔ weekday x < 5 ∧ UKOfYear country dno true y x := by
    unfold ukOff UKOfYear
    rw [List.mem_append, List.mem_append, ← observedNext_iff (mem_ukFixedOf country dno y), mem_ukMovingOf, mem_ukRoyalOf]
    have hw : (UKFloating country dno y x ∧ x ≠ dayNum 2002 5 27 ∧ x ≠ dayNum 2012 5 28) ∨ UKRoyal dno y x → weekday x < 5 := by
      intro h
      apply uk_weekdays y hy (decide (country = "scotland"))
      rw [List.mem_append]
      rcases h with h | h
      · rw [← mem_ukMovingOf] at h
        exact .inl ((ukMoving_sublist _ _ _ _ _ _ _).subset h)
      · rw [← mem_ukRoyalOf] at h
        exact .inr ((mem_onlyIf.1 h).2)
    simp only [true_and]
    constructor
    · rintro (⟨h1, h2⟩ | h)
      · refine ⟨h1, ?_⟩
        rcases h2 with h2 | h2
        · exact .inl h2
        · exact .inr (.inl h2)
      · exact ⟨hw h, .inr (.inr h)⟩
    · rintro ⟨h1, h2 | h2 | h2⟩
      · exact .inl ⟨h1, .inl h2⟩
      · exact .inl ⟨h1, .inr h2⟩
      · exact .inr h2
  rw [key, mem_weekdaysOf]
  constructor
  · rintro ⟨h1, h2⟩; exact ⟨⟨h2.inYear, h1⟩, h2⟩
  · rintro ⟨⟨_, h1⟩, h2⟩; exact ⟨h1, h2⟩

theorem names_cons (n : String) (l : List String) : ((((n :: l).filter (fun n => !dno.contains n)).length : Nat) : Int) =
    (if n ∉ dno then 1 else 0) + ((l.filter (fun n => !dno.contains n)).length : Nat) := by
  by_cases h : n ∈ dno
  · simp [h]
  · simp [h]; omega

theorem ukOff_length (hy : y ∈ intRange 2000 2021) : ((ukOff country dno y).length : Int) = ukDaysOff country dno y := by
  unfold ukOff ukDaysOff
  rw [List.length_append, List.length_append, List.length_map, Int.natCast_add, Int.natCast_add]
  unfold ukMovingOf
  rw [uk_moving_length y hy]
  have hr : ((ukRoyalOf dno y).length : Int) = if "royal" ∉ dno then royalDays y else 0 := by
    unfold ukRoyalOf onlyIf ukRoyalDays royalDays
    by_cases h : "royal" ∉ dno
    · simp only [h, decide_true, if_true, not_false_eq_true]
      repeat' split
      all_goals rfl
    · simp [h]
  rw [hr]
  have hf : ((ukFixedOf country dno y).length : Int) = (if "new_year" ∉ dno then 1 else 0)
      + (if "new_year2" ∉ dno ∧ country ≠ "england" ∧ country ≠ "northern_ireland" then 1 else 0)
      + (if "st_patricks" ∉ dno ∧ country ≠ "england" ∧ country ≠ "scotland" then 1 else 0)
      + (if "orangemens" ∉ dno ∧ country ≠ "england" ∧ country ≠ "scotland" then 1 else 0)
      + (if "st_andrews" ∉ dno ∧ country ≠ "england" ∧ country ≠ "northern_ireland" then 1 else 0)
      + (if "christmas" ∉ dno then 1 else 0) + (if "boxing" ∉ dno then 1 else 0) := by
    unfold ukFixedOf ukFixedDays marked
    simp only [List.length_map, List.filter_cons, List.filter_nil, decide_eq_true_eq]
    repeat' split
    all_goals simp
  rw [hf]
  have hb : ∀ (p q : Prop) [Decidable p] [Decidable q], (if decide p = true ∧ q then (1 : Int) else 0) = if p ∧ q then 1 else 0 := by
    intro p q _ _; simp only [decide_eq_true_eq]
  have hd : ∀ (p : Prop) [Decidable p], (if decide p = true then (1 : Int) else 0) = if p then 1 else 0 := by
    intro p _; simp only [decide_eq_true_eq]
  have hs : (if "spring" ∉ dno ∧ y ≠ 2002 ∧ y ≠ 2012 then (1 : Int) else 0) =
      (if "spring" ∉ dno then 1 else 0) - (if "spring" ∉ dno ∧ (y = 2002 ∨ y = 2012) then 1 else 0) := by
    by_cases h : "spring" ∉ dno
    · by_cases h' : y = 2002 ∨ y = 2012
      · rw [if_neg (fun q => by omega), if_pos h, if_pos ⟨h, h'⟩]; rfl
      · rw [if_pos ⟨h, by omega, by omega⟩, if_pos h, if_neg (fun q => h' q.2)]; rfl
    · rw [if_neg (fun q => h q.1), if_neg h, if_neg (fun q => h q.1)]; rfl
  simp only [hb, hd]
  rw [hs]
  unfold ukNames
  by_cases c1 : country = "england"
  · subst c1
    simp only [List.cons_append, List.nil_append, names_cons, if_true]
    simp
    omega
  · rw [if_neg c1]
    by_cases c2 : country = "scotland"
    · subst c2
      simp only [List.cons_append, List.nil_append, names_cons, if_true]
      simp
      omega
    · rw [if_neg c2]
      by_cases c3 : country = "northern_ireland"
      · subst c3
        simp only [List.cons_append, List.nil_append, names_cons, if_true]
        simp
        omega
      · rw [if_neg c3]
        simp only [List.cons_append, List.nil_append, names_cons]
        simp [c1, c2, c3]
        omega

end

end TB
