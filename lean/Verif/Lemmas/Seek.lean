import Verif.Lemmas.Dict
import Verif.Lemmas.Weekday
/-! The n-th weekday of a month in the calendars. -/
namespace TB

theorem periodRange_unit {f : Freq} (h : f.mult = 1) (a b : Time) :
    periodRange f a b = intRange (f.base.ordOf a) (f.base.ordOf b + 1) := by
  unfold periodRange intRange
  simp only [h]
  split
  · rename_i hlt
    have : (f.base.ordOf b + 1 - f.base.ordOf a).toNat = 0 := by omega
    rw [this]; rfl
  · have : ((f.base.ordOf b - f.base.ordOf a) / ((1 : Nat) : Int) + 1).toNat = (f.base.ordOf b + 1 - f.base.ordOf a).toNat := by
      simp; omega
    rw [this]
    apply List.map_congr_left
    intro i _
    simp

theorem pyGet?_intRange_nonneg {a b n : Int} (h : 0 ≤ n) : pyGet? (intRange a b) n = if a + n < b then some (a + n) else none := by
  split
  · rename_i h1
    rw [pyGet?_nonneg _ h, getElem?_intRange (by omega)]
    congr 1; omega
  · rename_i h1
    apply pyGet?_ge
    rw [length_intRange]; omega

theorem pyGet?_intRange_neg {a b n : Int} (h : n < 0) : pyGet? (intRange a b) n = if a ≤ b + n then some (b + n) else none := by
  split
  · rename_i h1
    unfold pyGet?
    rw [if_neg (by omega), length_intRange, if_pos (by omega), getElem?_intRange (by omega)]
    congr 1; omega
  · rename_i h1
    by_cases hab : a ≤ b
    · apply pyGet?_low
      rw [length_intRange]; omega
    · apply pyGet?_low
      rw [length_intRange]; omega

/-- The conditions on a date to seek: those of the assertions. -/
def SeekDate.Ok (s : SeekDate) : Prop :=
  (1 ≤ s.month ∧ s.month ≤ 12) ∧ (1 ≤ s.weekday ∧ s.weekday ≤ 7) ∧ ((1 ≤ s.n ∧ s.n ≤ 5) ∨ (-5 ≤ s.n ∧ s.n ≤ -1))

instance (s : SeekDate) : Decidable s.Ok := by unfold SeekDate.Ok; infer_instance

theorem seekOne_bad (year : Int) {s : SeekDate} (raising : Bool) (h : ¬ s.Ok) : seekOne year s raising = .error .assertionError := by
  unfold seekOne
  rw [if_pos]
  unfold SeekDate.Ok at h
  omega

/-- The month (January 1970 is 0) of a date to seek. -/
def SeekDate.monthNum (s : SeekDate) (year : Int) : Int := 12 * (year - 1970) + (s.month - 1)

theorem weeks_of_month (wend : Fin 7) (a b : Int) (hab : a < b) (wd : Int) (hwd : ((wend : Nat) : Int) = (wd + 6) % 7) :
    dropEarly (Denom.W (some wend)).freq (a * nsDay) (periodRange (Denom.W (some wend)).freq (a * nsDay) (b * nsDay - 1)) =
      intRange ((a + (wd - weekday a) % 7 - ((wend : Nat) : Int) + 2) / 7) ((b - 1 - ((wend : Nat) : Int) + 2) / 7 + 1) := by
  have hm : ((Denom.W (some wend)).freq).mult = 1 := rfl
  rw [periodRange_unit hm]
  have e0 : (Denom.W (some wend)).freq.base = .W wend := rfl
  rw [e0]
  have ea : (Base.W wend).ordOf (a * nsDay) = (a - ((wend : Nat) : Int) + 2) / 7 := by
    show (a * nsDay / nsDay - ((wend : Nat) : Int) + 2) / 7 = _
    rw [Int.mul_ediv_cancel _ (by decide)]
  have eb : (Base.W wend).ordOf (b * nsDay - 1) = (b - 1 - ((wend : Nat) : Int) + 2) / 7 := by
    show ((b * nsDay - 1) / nsDay - ((wend : Nat) : Int) + 2) / 7 = _
    have : (b * nsDay - 1) / nsDay = b - 1 := by unfold nsDay; omega
    rw [this]
  rw [ea, eb]
  have hlt : (wend : Nat) < 7 := wend.2
  rw [intRange_cons (by omega)]
  simp only [dropEarly]
  rw [e0]
  have es : (Base.W wend).startOf ((a - ((wend : Nat) : Int) + 2) / 7) < a * nsDay ↔ (a - ((wend : Nat) : Int) + 2) % 7 ≠ 0 := by
    show (7 * ((a - ((wend : Nat) : Int) + 2) / 7) + ((wend : Nat) : Int) - 2) * nsDay < a * nsDay ↔ _
    unfold nsDay; omega
  by_cases hc : (a - ((wend : Nat) : Int) + 2) % 7 ≠ 0
  · rw [if_pos (es.2 hc)]
    congr 1
    unfold weekday; omega
  · rw [if_neg (fun h => hc (es.1 h)), ← intRange_cons (by omega)]
    congr 1
    unfold weekday; omega

/-- The weekday sought exists and is found, or it does not exist. -/
theorem seekOne_spec (year : Int) {s : SeekDate} (raising : Bool) (h : s.Ok) :
    (∃ d, IsNthWeekday (s.monthNum year) (s.weekday - 1) s.n d ∧ seekOne year s raising = .ok (some ((d + s.shift) * nsDay))) ∨
    ((∀ d, ¬ IsNthWeekday (s.monthNum year) (s.weekday - 1) s.n d) ∧
      seekOne year s raising = if raising then .error .outOfBounds else .ok none) := by
  obtain ⟨⟨hm1, hm2⟩, ⟨hw1, hw2⟩, hn⟩ := h
  unfold seekOne
  rw [if_neg (by omega)]
  simp only
  have hlt : monthStart (s.monthNum year) < monthStart (s.monthNum year + 1) := monthStart_lt (by omega)
  have hs : Base.M.startOf (12 * (year - 1970) + (s.month - 1)) = monthStart (s.monthNum year) * nsDay := rfl
  have he : Base.M.startOf (12 * (year - 1970) + (s.month - 1) + 1) = monthStart (s.monthNum year + 1) * nsDay := rfl
  rw [hs, he]
  generalize hK : s.monthNum year = k at *
  have hwend : ((((s.weekday + 5) % 7).toNat : Nat) : Int) = (s.weekday - 1 + 6) % 7 := by omega
  have hfin : (s.weekday + 5) % 7 = (((s.weekday + 5) % 7).toNat : Int) := by omega
  rw [weeks_of_month ⟨((s.weekday + 5) % 7).toNat, by omega⟩ _ _ hlt (s.weekday - 1) hwend]
  have hst : ∀ o, (Denom.W (some ⟨((s.weekday + 5) % 7).toNat, by omega⟩)).freq.base.startOf o = (7 * o + (s.weekday + 5) % 7 - 2) * nsDay := by
    intro o
    show (7 * o + ((((s.weekday + 5) % 7).toNat : Nat) : Int) - 2) * nsDay = _
    rw [← hfin]
  simp only [hst, ← hfin]
  generalize hA : monthStart k = a at *
  rcases hn with ⟨hn1, hn2⟩ | ⟨hn1, hn2⟩
  · rw [if_pos (by omega), pyGet?_intRange_nonneg (by omega)]
    have key : ∀ d, IsNthWeekday k (s.weekday - 1) s.n d ↔ _ := fun d => isNthWeekday_pos (by omega) (by omega) (by omega)
    simp only [hA] at key
    simp only [key]
    generalize hB : monthStart (k + 1) = b at *
    by_cases hc : a + (s.weekday - 1 - weekday a) % 7 + 7 * (s.n - 1) < b
    · left
      refine ⟨_, ⟨rfl, hc⟩, ?_⟩
      rw [if_pos (by unfold weekday at *; omega)]
      simp only [Except.ok.injEq, Option.some.injEq]
      rw [← Int.add_mul]
      congr 1
      unfold weekday; omega
    · right
      refine ⟨fun d hd => hc (by omega), ?_⟩
      rw [if_neg (by unfold weekday at *; omega)]
  · rw [if_neg (by omega), pyGet?_intRange_neg (by omega)]
    have key : ∀ d, IsNthWeekday k (s.weekday - 1) s.n d ↔ _ := fun d => isNthWeekday_neg (by omega) (by omega) (by omega)
    simp only [hA] at key
    simp only [key]
    generalize hB : monthStart (k + 1) = b at *
    by_cases hc : a ≤ b - 1 - (weekday (b - 1) - (s.weekday - 1)) % 7 + 7 * (s.n + 1)
    · left
      refine ⟨_, ⟨rfl, hc⟩, ?_⟩
      rw [if_pos (by unfold weekday at *; omega)]
      simp only [Except.ok.injEq, Option.some.injEq]
      rw [← Int.add_mul]
      congr 1
      unfold weekday; omega
    · right
      refine ⟨fun d hd => hc (by omega), ?_⟩
      rw [if_neg (by unfold weekday at *; omega)]

/-- `t` is what a date to seek means in the year. -/
def SeekDate.Hits (s : SeekDate) (year : Int) (t : Time) : Prop :=
  ∃ d, IsNthWeekday (s.monthNum year) (s.weekday - 1) s.n d ∧ t = (d + s.shift) * nsDay

theorem SeekDate.Ok.hits_unique {s : SeekDate} (h : s.Ok) {year : Int} {t t' : Time} (h1 : s.Hits year t) (h2 : s.Hits year t') : t = t' := by
  obtain ⟨d, hd, rfl⟩ := h1
  obtain ⟨d', hd', rfl⟩ := h2
  obtain ⟨_, h3, h4⟩ := h
  rw [hd.unique (by omega) (by omega) (by omega) hd']

theorem seekOne_hit {year : Int} {s : SeekDate} (raising : Bool) (h : s.Ok) {t : Time} (ht : s.Hits year t) :
    seekOne year s raising = .ok (some t) := by
  rcases seekOne_spec year raising h with ⟨d, hd, e⟩ | ⟨hd, e⟩
  · rw [e, h.hits_unique ht ⟨d, hd, rfl⟩]
  · obtain ⟨d, hd', _⟩ := ht
    exact absurd hd' (hd d)

theorem seekOne_miss {year : Int} {s : SeekDate} (raising : Bool) (h : s.Ok) (ht : ¬ ∃ t, s.Hits year t) :
    seekOne year s raising = if raising then .error .outOfBounds else .ok none := by
  rcases seekOne_spec year raising h with ⟨d, hd, e⟩ | ⟨hd, e⟩
  · exact absurd ⟨_, d, hd, rfl⟩ ht
  · exact e

section
variable {V : Type}

/-- The loop of `nth_weekday_of_month`. -/
def seekLoop (year : Int) (label : V) (raising : Bool) (seek : List SeekDate) (d : Dict Time V) : Except Err (Dict Time V) :=
  seek.foldlM (fun d s => do
    match ← seekOne year s raising with
    | none => return d
    | some t => return d.set t label) d

theorem nthWeekdays_eq (year : Int) (seek : List SeekDate) (label : V) (raising : Bool) :
    nthWeekdays year seek label raising = seekLoop year label raising seek [] := rfl

theorem seekLoop_nil (year : Int) (label : V) (raising : Bool) (d : Dict Time V) : seekLoop year label raising [] d = .ok d := rfl

theorem seekLoop_cons (year : Int) (label : V) (raising : Bool) (s : SeekDate) (ss : List SeekDate) (d : Dict Time V) :
    seekLoop year label raising (s :: ss) d = match seekOne year s raising with
      | .error e => .error e
      | .ok none => seekLoop year label raising ss d
      | .ok (some t) => seekLoop year label raising ss (d.set t label) := by
  unfold seekLoop
  rw [List.foldlM_cons]
  cases h : seekOne year s raising with
  | error e => rfl
  | ok o => cases o <;> rfl

/-- The dictionary when all dates exist or missing ones are ignored. -/
theorem seekLoop_ok (year : Int) (label : V) (raising : Bool) (seek : List SeekDate) (hok : ∀ s ∈ seek, s.Ok)
    (hr : raising = false ∨ ∀ s ∈ seek, ∃ t, s.Hits year t) (d0 : Dict Time V) :
    ∃ d, seekLoop year label raising seek d0 = .ok d ∧ (d0.Distinct → d.Distinct) ∧
      (∀ t, (∃ s ∈ seek, s.Hits year t) → d.get? t = some label) ∧ (∀ t, (¬ ∃ s ∈ seek, s.Hits year t) → d.get? t = d0.get? t) := by
  induction seek generalizing d0 with
  | nil => exact ⟨d0, rfl, id, by simp, by simp⟩
  | cons s ss ih =>
    rw [seekLoop_cons]
    have hs := hok s List.mem_cons_self
    have hr' : raising = false ∨ ∀ s ∈ ss, ∃ t, s.Hits year t := hr.imp id (fun h s hs => h s (List.mem_cons_of_mem _ hs))
    by_cases hh : ∃ t, s.Hits year t
    · obtain ⟨t0, ht0⟩ := hh
      rw [seekOne_hit raising hs ht0]
      obtain ⟨d, e, hd, h1, h2⟩ := ih (fun x hx => hok x (List.mem_cons_of_mem _ hx)) hr' (d0.set t0 label)
      refine ⟨d, e, fun h => hd (h.set _ _), ?_, ?_⟩
      · intro t ht
        by_cases ht' : ∃ s ∈ ss, s.Hits year t
        · exact h1 t ht'
        · rw [h2 t ht', Dict.get?_set]
          obtain ⟨x, hx, hxt⟩ := ht
          rcases List.mem_cons.1 hx with rfl | hx
          · rw [hs.hits_unique hxt ht0]; simp
          · exact absurd ⟨x, hx, hxt⟩ ht'
      · intro t ht
        rw [h2 t (fun ⟨x, hx, hxt⟩ => ht ⟨x, List.mem_cons_of_mem _ hx, hxt⟩), Dict.get?_set, if_neg]
        rintro rfl
        exact ht ⟨s, List.mem_cons_self, ht0⟩
    · have hf : raising = false := by
        rcases hr with h | h
        · exact h
        · exact absurd (h s List.mem_cons_self) hh
      rw [seekOne_miss raising hs hh, hf]
      obtain ⟨d, e, hd, h1, h2⟩ := ih (fun x hx => hok x (List.mem_cons_of_mem _ hx)) hr' d0
      rw [hf] at e
      refine ⟨d, e, hd, ?_, ?_⟩
      · rintro t ⟨x, hx, hxt⟩
        rcases List.mem_cons.1 hx with rfl | hx
        · exact absurd ⟨t, hxt⟩ hh
        · exact h1 t ⟨x, hx, hxt⟩
      · intro t ht
        exact h2 t (fun ⟨x, hx, hxt⟩ => ht ⟨x, List.mem_cons_of_mem _ hx, hxt⟩)

/-- The errors: of the first item which is wrong. -/
theorem seekLoop_error (year : Int) (label : V) (raising : Bool) (good : List SeekDate) (s : SeekDate) (rest : List SeekDate)
    (hok : ∀ s ∈ good, s.Ok) (hr : raising = false ∨ ∀ s ∈ good, ∃ t, s.Hits year t) (d0 : Dict Time V) :
    (¬ s.Ok → seekLoop year label raising (good ++ s :: rest) d0 = .error .assertionError) ∧
    (s.Ok → raising = true → (¬ ∃ t, s.Hits year t) → seekLoop year label raising (good ++ s :: rest) d0 = .error .outOfBounds) := by
  obtain ⟨d, e, _⟩ := seekLoop_ok year label raising good hok hr d0
  have e2 : seekLoop year label raising (good ++ s :: rest) d0 = seekLoop year label raising (s :: rest) d := by
    unfold seekLoop at *
    rw [List.foldlM_append, e]; rfl
  rw [e2, seekLoop_cons]
  constructor
  · intro h; rw [seekOne_bad _ _ h]
  · intro h h1 h2; rw [seekOne_miss _ h h2, h1]; rfl

end
end TB
