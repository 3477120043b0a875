import Verif.Spec.Text
import Verif.Lemmas.When
import Verif.Lemmas.Timeline
/-!
# Reading back what is printed: numbers, dates, frequencies
-/
namespace TB

/-! ## Splitting -/

theorem splitFirst_append {c : Char} {a : Text} (b : Text) (h : c ∉ a) : splitFirst c (a ++ c :: b) = some (a, b) := by
  induction a with
  | nil => simp [splitFirst]
  | cons x xs ih =>
    simp only [List.mem_cons, not_or] at h
    simp [splitFirst, ih h.2, Ne.symm h.1]

theorem splitFirst_none {c : Char} {a : Text} (h : c ∉ a) : splitFirst c a = none := by
  induction a with
  | nil => rfl
  | cons x xs ih =>
    simp only [List.mem_cons, not_or] at h
    simp [splitFirst, ih h.2, Ne.symm h.1]

theorem splitLast_append {c : Char} (a : Text) {b : Text} (h : c ∉ b) : splitLast c (a ++ c :: b) = some (a, b) := by
  have : (a ++ c :: b).reverse = b.reverse ++ c :: a.reverse := by simp
  rw [splitLast, this, splitFirst_append _ (by simpa using h)]
  simp

theorem after_append (p s : Text) : after p (p ++ s) = some s := by
  induction p with
  | nil => cases s <;> rfl
  | cons x xs ih => simp [after, ih]

theorem before_append (s e : Text) : before e (s ++ e) = some s := by
  simp [before, after_append]

/-! ## Numbers -/

/-- The digits. -/
def digits : List Char := ['0', '1', '2', '3', '4', '5', '6', '7', '8', '9']

theorem digit_mem {n : Nat} (h : n < 10) : digit n ∈ digits := by
  have : ∀ n : Fin 10, digit n ∈ digits := by decide
  exact this ⟨n, h⟩

theorem digitValue_digit {n : Nat} (h : n < 10) : digitValue (digit n) = some n := by
  have : ∀ n : Fin 10, digitValue (digit n) = some n.val := by decide
  exact this ⟨n, h⟩

theorem natText_digits (n : Nat) : ∀ c ∈ natText n, c ∈ digits := by
  induction n using Nat.strongRecOn with
  | ind n ih =>
    intro c hc
    rw [natText] at hc
    split at hc
    · rename_i h
      rw [List.mem_singleton.1 hc]; exact digit_mem h
    · rename_i h
      rcases List.mem_append.1 hc with hc | hc
      · exact ih _ (by omega) c hc
      · rw [List.mem_singleton.1 hc]; exact digit_mem (by omega)

theorem natText_ne_nil (n : Nat) : natText n ≠ [] := by
  rw [natText]; split <;> simp

theorem readDigits_append (k : Nat) (a b : Text) : readDigits k (a ++ b) = (readDigits k a).bind (fun n => readDigits n b) := by
  induction a generalizing k with
  | nil => rfl
  | cons x xs ih =>
    simp only [List.cons_append, readDigits]
    cases digitValue x with
    | none => rfl
    | some d => simpa using ih _

theorem readDigits_natText (n : Nat) : readDigits 0 (natText n) = some n := by
  induction n using Nat.strongRecOn with
  | ind n ih =>
    rw [natText]
    split
    · rename_i h
      simp [readDigits, digitValue_digit h]
    · rw [readDigits_append, ih _ (by omega)]
      simp [readDigits, digitValue_digit (show n % 10 < 10 by omega)]
      omega

theorem readNat_natText (n : Nat) : readNat (natText n) = some n := by
  rw [readNat, if_neg (natText_ne_nil n), readDigits_natText]

theorem readInt_intText (i : Int) : readInt (intText i) = some i := by
  rw [intText]
  split
  · rename_i h
    simp only [readInt, readNat_natText]
    exact congrArg some (show -((i.natAbs : Nat) : Int) = i by omega)
  · rename_i h
    have hd : ∀ s, natText i.natAbs ≠ '-' :: s := by
      intro s e
      have := natText_digits i.natAbs '-' (by rw [e]; simp)
      simp [digits] at this
    unfold readInt
    split
    · rename_i s e; exact absurd e (hd s)
    · simp only [readNat_natText]
      exact congrArg some (show ((i.natAbs : Nat) : Int) = i by omega)

theorem readNat_twoDigits {n : Nat} (h : n < 100) : readNat (twoDigits n) = some n := by
  simp only [twoDigits, readNat, readDigits, digitValue_digit (show n / 10 % 10 < 10 by omega),
    digitValue_digit (show n % 10 < 10 by omega)]
  simp
  omega

/-- Reading a natural number written as an integer. -/
theorem readNat_intText {i : Int} (h : 0 ≤ i) : readNat (intText i) = some i.toNat := by
  rw [intText, if_neg (by omega), readNat_natText]
  congr 1; omega

/-- Characters of numbers. -/
def numChars : List Char := '-' :: digits

theorem intText_chars (i : Int) : ∀ c ∈ intText i, c ∈ numChars := by
  intro c hc
  rw [intText] at hc
  split at hc
  · rcases List.mem_cons.1 hc with rfl | hc
    · simp [numChars]
    · exact List.mem_cons_of_mem _ (natText_digits _ c hc)
  · exact List.mem_cons_of_mem _ (natText_digits _ c hc)

theorem twoDigits_digits (n : Nat) : ∀ c ∈ twoDigits n, c ∈ digits := by
  intro c hc
  simp only [twoDigits, List.mem_cons, List.not_mem_nil, or_false] at hc
  rcases hc with rfl | rfl
  · exact digit_mem (by omega)
  · exact digit_mem (by omega)

theorem not_mem_of {cs : List Char} {s : Text} {c : Char} (h : ∀ x ∈ s, x ∈ cs) (hc : c ∉ cs) : c ∉ s :=
  fun m => hc (h c m)

theorem intText_ne_nil (i : Int) : intText i ≠ [] := by
  rw [intText]; split
  · simp
  · exact natText_ne_nil _

/-! ## Dates -/

/-- Characters of dates. -/
theorem monthText_chars (k : Int) : ∀ c ∈ monthText k, c ∈ numChars := by
  intro c hc
  simp only [monthText, List.mem_append, List.mem_cons] at hc
  rcases hc with hc | rfl | hc
  · exact intText_chars _ c hc
  · simp [numChars]
  · exact List.mem_cons_of_mem _ (twoDigits_digits _ c hc)

theorem dayText_chars (d : Int) : ∀ c ∈ dayText d, c ∈ numChars := by
  intro c hc
  simp only [dayText, List.mem_append, List.mem_cons] at hc
  rcases hc with hc | rfl | hc
  · exact monthText_chars _ c hc
  · simp [numChars]
  · exact List.mem_cons_of_mem _ (twoDigits_digits _ c hc)

theorem dash_not_mem_twoDigits (n : Nat) : '-' ∉ twoDigits n := not_mem_of (twoDigits_digits n) (by decide)

theorem splitLast_monthText (k : Int) :
    splitLast '-' (monthText k) = some (intText (1970 + k / 12), twoDigits (k % 12 + 1).toNat) :=
  splitLast_append _ (dash_not_mem_twoDigits _)

theorem readMonth_monthText (k : Int) : readMonth (monthText k) = some k := by
  simp only [readMonth, splitLast_monthText, Option.bind_eq_bind, Option.bind_some, readInt_intText,
    readNat_twoDigits (show (k % 12 + 1).toNat < 100 by omega)]
  exact congrArg some (by omega)

theorem month_length (k : Int) : monthStart (k + 1) - monthStart k ≤ 31 := by
  have := monthStart_step k
  omega

theorem readDay_dayText (d : Int) : readDay (dayText d) = some (d * nsDay) := by
  have h := monthOf_spec d
  have hl := month_length (monthOf d)
  have h1 : (dayOfMonth d).toNat < 100 := by unfold dayOfMonth; omega
  have h2 : splitLast '-' (dayText d) = some (monthText (monthOf d), twoDigits (dayOfMonth d).toNat) :=
    splitLast_append _ (dash_not_mem_twoDigits _)
  simp only [readDay, h2, splitLast_monthText, Option.bind_eq_bind, Option.bind_some, readInt_intText, readNat_twoDigits h1,
    readNat_twoDigits (show (monthOf d % 12 + 1).toNat < 100 by omega)]
  have h3 : dayNum (1970 + monthOf d / 12) ((monthOf d % 12 + 1).toNat : Int) ((dayOfMonth d).toNat : Int) = d := by
    have e : 12 * (1970 + monthOf d / 12 - 1970) + (((monthOf d % 12 + 1).toNat : Int) - 1) = monthOf d := by omega
    unfold dayNum
    rw [e]
    unfold dayOfMonth; omega
  simp only [date, h3]
  rfl

theorem space_not_mem_dayText (d : Int) : ' ' ∉ dayText d := not_mem_of (dayText_chars d) (by decide)

theorem colon_not_mem_twoDigits (n : Nat) : ':' ∉ twoDigits n := not_mem_of (twoDigits_digits n) (by decide)

theorem readTime_minutes (d : Int) {h m : Nat} (hh : h < 100) (hm : m < 100) :
    readTime (dayText d ++ ' ' :: twoDigits h ++ ':' :: twoDigits m) = some (d * nsDay + h * nsHour + m * nsMin) := by
  have e : dayText d ++ ' ' :: twoDigits h ++ ':' :: twoDigits m = dayText d ++ ' ' :: (twoDigits h ++ ':' :: twoDigits m) := by simp
  simp only [readTime, e, splitFirst_append _ (space_not_mem_dayText d), splitFirst_append _ (colon_not_mem_twoDigits h),
    splitFirst_none (colon_not_mem_twoDigits m), Option.bind_eq_bind, Option.bind_some, readDay_dayText, readNat_twoDigits hh,
    readNat_twoDigits hm]
  rfl

theorem readTime_seconds (d : Int) {h m s : Nat} (hh : h < 100) (hm : m < 100) (hs : s < 100) :
    readTime (dayText d ++ ' ' :: twoDigits h ++ ':' :: twoDigits m ++ ':' :: twoDigits s) =
      some (d * nsDay + h * nsHour + m * nsMin + s * nsSec) := by
  have e : dayText d ++ ' ' :: twoDigits h ++ ':' :: twoDigits m ++ ':' :: twoDigits s =
    dayText d ++ ' ' :: (twoDigits h ++ ':' :: (twoDigits m ++ ':' :: twoDigits s)) := by simp
  simp only [readTime, e, splitFirst_append _ (space_not_mem_dayText d), splitFirst_append _ (colon_not_mem_twoDigits h),
    splitFirst_append _ (colon_not_mem_twoDigits m), Option.bind_eq_bind, Option.bind_some, readDay_dayText, readNat_twoDigits hh,
    readNat_twoDigits hm, readNat_twoDigits hs]
  rfl

theorem fiscalStart_quarter (e : Fin 12) (o : Int) :
    let k := 3 * o + ((e.val : Int) + 1) % 3
    0 ≤ ((fiscal e k).2 - 1) / 3 + 1 ∧ fiscalStart e (fiscal e k).1 + 3 * (((fiscal e k).2 - 1) / 3 + 1 - 1) = k := by
  intro k
  have he := e.isLt
  simp only [fiscal, fiscalStart]
  split
  · omega
  · split <;> simp only <;> omega

theorem fiscalStart_year (e : Fin 12) (o : Int) :
    let k := 12 * o + ((e.val : Int) + 1) % 12
    fiscalStart e (fiscal e k).1 = k := by
  intro k
  have he := e.isLt
  simp only [fiscal, fiscalStart]
  split
  · omega
  · split <;> simp only <;> omega

theorem mul_nsDay_div (x : Int) : x * nsDay / nsDay = x := Int.mul_ediv_cancel _ (by decide)

/-- The start of a period can be read off its printed form. -/
theorem readPeriod_periodText (b : Base) (o : Int) : b.readPeriod (b.periodText o) = some (b.startOf o) := by
  cases b with
  | S =>
    simp only [Base.readPeriod, Base.periodText, Base.startOf]
    rw [readTime_seconds _ (by omega) (by omega) (by omega)]
    exact congrArg some (by simp only [nsDay, nsHour, nsMin, nsSec]; omega)
  | T =>
    simp only [Base.readPeriod, Base.periodText, Base.startOf]
    rw [readTime_minutes _ (by omega) (by omega)]
    exact congrArg some (by simp only [nsDay, nsHour, nsMin]; omega)
  | H =>
    simp only [Base.readPeriod, Base.periodText, Base.startOf]
    have e : [':', '0', '0'] = ':' :: twoDigits 0 := rfl
    rw [e, readTime_minutes _ (by omega) (by omega)]
    exact congrArg some (by simp only [nsDay, nsHour, nsMin]; omega)
  | D => exact readDay_dayText o
  | W e =>
    simp only [Base.readPeriod, Base.periodText]
    rw [splitFirst_append _ (not_mem_of (dayText_chars _) (by decide))]
    simp only [Option.bind_eq_bind, Option.bind_some, readDay_dayText, Base.startOf, mul_nsDay_div]
    rw [if_pos (by simp only [nsDay]; omega)]
  | M => simp only [Base.readPeriod, Base.periodText, readMonth_monthText, Option.map_some, Base.startOf]
  | Q e =>
    have h := fiscalStart_quarter e o
    simp only [Base.readPeriod, Base.periodText, Base.startOf, mul_nsDay_div, monthOf_monthStart]
    rw [splitFirst_append _ (not_mem_of (intText_chars _) (by decide))]
    simp only [Option.bind_eq_bind, Option.bind_some, readInt_intText, readNat_intText h.1]
    have e1 : ((((fiscal e (3 * o + ((e.val : Int) + 1) % 3)).2 - 1) / 3 + 1).toNat : Int) =
      ((fiscal e (3 * o + ((e.val : Int) + 1) % 3)).2 - 1) / 3 + 1 := Int.toNat_of_nonneg h.1
    rw [e1, h.2]
    rfl
  | A e =>
    have h := fiscalStart_year e o
    simp only [Base.readPeriod, Base.periodText, Base.startOf, mul_nsDay_div, monthOf_monthStart, readInt_intText, Option.map_some]
    rw [h]

/-- Characters of printed periods. -/
def periodChars : List Char := [' ', ':', '/', 'Q'] ++ numChars

theorem periodText_chars (b : Base) (o : Int) : ∀ c ∈ b.periodText o, c ∈ periodChars := by
  have hn : ∀ c, c ∈ numChars → c ∈ periodChars := fun c h => List.mem_append_right _ h
  have hd : ∀ d, ∀ c ∈ dayText d, c ∈ periodChars := fun d c h => hn c (dayText_chars d c h)
  have h2 : ∀ n, ∀ c ∈ twoDigits n, c ∈ periodChars := fun n c h => hn c (List.mem_cons_of_mem _ (twoDigits_digits n c h))
  have hi : ∀ n, ∀ c ∈ intText n, c ∈ periodChars := fun n c h => hn c (intText_chars n c h)
  intro c hc
  have hs : ' ' ∈ periodChars ∧ ':' ∈ periodChars ∧ '/' ∈ periodChars ∧ 'Q' ∈ periodChars ∧ '0' ∈ periodChars := by decide
  cases b <;> simp only [Base.periodText, List.mem_append, List.mem_cons, List.not_mem_nil, or_false] at hc <;>
    grind [monthText_chars]

/-! ## Frequencies -/

theorem readDenom_text (d : Denom) : readDenom d.text = some d := by
  have hw : ∀ w : Fin 7, readDenom (Denom.W (some w)).text = some (.W (some w)) := by decide +kernel
  have hq : ∀ m : Fin 12, readDenom (Denom.Q (some m)).text = some (.Q (some m)) := by decide +kernel
  have ha : ∀ m : Fin 12, readDenom (Denom.A (some m)).text = some (.A (some m)) := by decide +kernel
  have hy : ∀ m : Fin 12, readDenom (Denom.Y (some m)).text = some (.Y (some m)) := by decide +kernel
  rcases d with _ | _ | _ | _ | (_ | w) | _ | (_ | m) | (_ | m) | _ | (_ | m)
  · decide +kernel
  · decide +kernel
  · decide +kernel
  · decide +kernel
  · decide +kernel
  · exact hw w
  · decide +kernel
  · decide +kernel
  · exact hq m
  · decide +kernel
  · exact ha m
  · decide +kernel
  · decide +kernel
  · exact hy m

/-- Letters of denominations. -/
def letters : List Char := "ABCDEFGHIJKLMNOPQRSTUVWXYZmin".toList

theorem denom_text (d : Denom) : ∃ c cs, d.text = c :: cs ∧ digitValue c = none ∧ ∀ x ∈ d.text, x ∈ '-' :: letters := by
  have hw : ∀ w : Fin 7, ∀ x ∈ weekdayName w, x ∈ '-' :: letters := by decide +kernel
  have hm : ∀ m : Fin 12, ∀ x ∈ monthName m, x ∈ '-' :: letters := by decide +kernel
  have h2 : '-' ∈ '-' :: letters ∧ 'W' ∈ '-' :: letters ∧ 'Q' ∈ '-' :: letters ∧ 'A' ∈ '-' :: letters ∧ 'Y' ∈ '-' :: letters := by decide +kernel
  rcases d with _ | _ | _ | _ | (_ | w) | _ | (_ | m) | (_ | m) | _ | (_ | m)
  · exact ⟨_, _, rfl, by decide +kernel, by decide +kernel⟩
  · exact ⟨_, _, rfl, by decide +kernel, by decide +kernel⟩
  · exact ⟨_, _, rfl, by decide +kernel, by decide +kernel⟩
  · exact ⟨_, _, rfl, by decide +kernel, by decide +kernel⟩
  · exact ⟨_, _, rfl, by decide +kernel, by decide +kernel⟩
  · refine ⟨_, _, rfl, by decide +kernel, ?_⟩
    intro x hx
    rcases List.mem_cons.1 hx with rfl | hx
    · exact h2.2.1
    rcases List.mem_cons.1 hx with rfl | hx
    · exact h2.1
    exact hw w x hx
  · exact ⟨_, _, rfl, by decide +kernel, by decide +kernel⟩
  · exact ⟨_, _, rfl, by decide +kernel, by decide +kernel⟩
  · refine ⟨_, _, rfl, by decide +kernel, ?_⟩
    intro x hx
    rcases List.mem_cons.1 hx with rfl | hx
    · exact h2.2.2.1
    rcases List.mem_cons.1 hx with rfl | hx
    · exact h2.1
    exact hm m x hx
  · exact ⟨_, _, rfl, by decide +kernel, by decide +kernel⟩
  · refine ⟨_, _, rfl, by decide +kernel, ?_⟩
    intro x hx
    rcases List.mem_cons.1 hx with rfl | hx
    · exact h2.2.2.2.1
    rcases List.mem_cons.1 hx with rfl | hx
    · exact h2.1
    exact hm m x hx
  · exact ⟨_, _, rfl, by decide +kernel, by decide +kernel⟩
  · exact ⟨_, _, rfl, by decide +kernel, by decide +kernel⟩
  · refine ⟨_, _, rfl, by decide +kernel, ?_⟩
    intro x hx
    rcases List.mem_cons.1 hx with rfl | hx
    · exact h2.2.2.2.2
    rcases List.mem_cons.1 hx with rfl | hx
    · exact h2.1
    exact hm m x hx

theorem digitValue_of_mem {c : Char} (h : c ∈ digits) : (digitValue c).isSome = true := by
  have : ∀ c ∈ digits, (digitValue c).isSome = true := by decide
  exact this c h

theorem readFreq_text (f : Freq) : readFreq f.text = some (f.factor, f.denom) := by
  obtain ⟨c, cs, e, hc, _⟩ := denom_text f.denom
  have hd := readDenom_text f.denom
  unfold Freq.text
  cases hf : f.factor with
  | none =>
    simp only [readFreq, List.nil_append]
    rw [e] at hd ⊢
    simp only [List.takeWhile_cons, List.dropWhile_cons, hc, Option.isSome_none, Bool.false_eq_true, if_false, hd,
      Option.bind_eq_bind, Option.bind_some, if_true]
    rfl
  | some n =>
    have hall : ∀ x ∈ natText n, (digitValue x).isSome = true := fun x hx => digitValue_of_mem (natText_digits n x hx)
    have e1 : (natText n ++ c :: cs).takeWhile (fun c => (digitValue c).isSome) = natText n := by
      rw [List.takeWhile_append_of_pos hall]
      simp [List.takeWhile_cons, hc]
    have e2 : (natText n ++ c :: cs).dropWhile (fun c => (digitValue c).isSome) = c :: cs := by
      rw [List.dropWhile_append_of_pos hall]
      simp [List.dropWhile_cons, hc]
    simp only [readFreq]
    rw [e] at hd ⊢
    simp only [e1, e2, hd, Option.bind_eq_bind, Option.bind_some, natText_ne_nil, if_false, readNat_natText]
    rfl

/-- Characters of frequencies. -/
def freqChars : List Char := digits ++ '-' :: letters

theorem freqText_chars (f : Freq) : ∀ c ∈ f.text, c ∈ freqChars := by
  intro c hc
  obtain ⟨_, _, _, _, h⟩ := denom_text f.denom
  unfold Freq.text at hc
  rcases List.mem_append.1 hc with hc | hc
  · cases hf : f.factor with
    | none => rw [hf] at hc; simp at hc
    | some n => rw [hf] at hc; exact List.mem_append_left _ (natText_digits n c hc)
  · exact List.mem_append_right _ (h c hc)

end TB
