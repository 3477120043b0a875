import Verif.Lemmas.FreqText
import Verif.Spec.Names
import Verif.Props.Names
/-! Frequency strings: how they are read when a marker is checked against the base units (C119). -/
namespace TB

theorem digit_of {c : Char} (h : isDigitChar c = true) : c = digit (c.toNat - 48) ∧ c.toNat - 48 < 10 := by
  have hd : c ∈ digits := by
    have := digitValue_code h
    simp only [digitValue] at this
    obtain ⟨hlt, hp, _⟩ := List.findIdx?_eq_some_iff_getElem.1 this
    rw [beq_iff_eq] at hp
    rw [← hp]; exact List.getElem_mem hlt
  have : ∀ c ∈ digits, c = digit (c.toNat - 48) ∧ c.toNat - 48 < 10 := by decide
  exact this c hd

theorem intOfDigits_snoc (s : Text) (c : Char) : intOfDigits (s ++ [c]) = 10 * intOfDigits s + (c.toNat - 48) := by
  simp [intOfDigits, List.foldl_append]

/-- Digits are zeros and then the number, if it is not zero; otherwise they are zeros only. -/
theorem digits_of_value (m : Nat) : ∀ (ds : Text), ds.length = m → (∀ c ∈ ds, isDigitChar c = true) →
    (intOfDigits ds = 0 → ds = List.replicate m '0') ∧
    (intOfDigits ds ≠ 0 → ∃ k, ds = List.replicate k '0' ++ natText (intOfDigits ds)) := by
  induction m with
  | zero =>
    intro ds hl _
    rw [List.length_eq_zero_iff] at hl
    subst hl
    exact ⟨fun _ => rfl, fun h => absurd rfl h⟩
  | succ m ih =>
    intro ds hl hd
    obtain ⟨xs, c, rfl⟩ : ∃ xs c, ds = xs ++ [c] := by
      rcases List.eq_nil_or_concat ds with h | ⟨xs, c, h⟩
      · rw [h] at hl; simp at hl
      · exact ⟨xs, c, by simpa using h⟩
    have hl' : xs.length = m := by simp at hl; exact hl
    obtain ⟨h1, h2⟩ := ih xs hl' (fun x hx => hd x (by simp [hx]))
    obtain ⟨e, hlt⟩ := digit_of (hd c (by simp))
    rw [intOfDigits_snoc]
    generalize c.toNat - 48 = v at e hlt
    subst e
    by_cases h0 : intOfDigits xs = 0
    · rw [h0, h1 h0]
      constructor
      · intro hv
        have : v = 0 := by omega
        subst this
        rw [show digit 0 = '0' from rfl, ← List.replicate_succ']
      · intro _
        refine ⟨m, ?_⟩
        rw [show 10 * 0 + v = v by omega, natText, if_pos hlt]
    · constructor
      · intro hv; omega
      · intro _
        obtain ⟨k, hk⟩ := h2 h0
        refine ⟨k, ?_⟩
        generalize intOfDigits xs = a at hk h0
        rw [hk, natText.eq_def (10 * a + v), if_neg (by omega), show (10 * a + v) / 10 = a by omega, show (10 * a + v) % 10 = v by omega]
        simp

/-- **C119.** The ways to write a frequency: the name alone if there is no factor; otherwise the decimal digits of the factor, perhaps
after some zeros, and the name. -/
theorem C119_ways (f : Freq) (s : Text) :
    f.WrittenAs s ↔ (f.factor = none ∧ s = f.denom.text) ∨
      ∃ n k, f.factor = some n ∧ s = List.replicate k '0' ++ natText n ++ f.denom.text := by
  constructor
  · intro h
    obtain ⟨e, _, h'⟩ := readFreq_inv h
    rcases h' with ⟨h0, hf⟩ | ⟨h0, hf⟩
    · left; rw [h0] at e; exact ⟨hf, e⟩
    · right
      have hn : intOfDigits (s.takeWhile isDigitChar) ≠ 0 := fun h1 => f.pos (by rw [hf, h1])
      obtain ⟨k, hk⟩ := (digits_of_value _ _ rfl (fun c hc => mem_takeWhile_of hc)).2 hn
      exact ⟨_, k, hf, by rw [← hk]; exact e⟩
  · rintro (⟨hf, rfl⟩ | ⟨n, k, hf, rfl⟩)
    · have := writtenAs_name f.denom
      unfold Freq.WrittenAs at this ⊢
      rw [this, hf]; rfl
    · obtain ⟨c, cs, e, hc, _⟩ := denom_text f.denom
      have hd := readDenom_text f.denom
      have hall : ∀ x ∈ List.replicate k '0' ++ natText n, (digitValue x).isSome = true := by
        intro x hx
        rcases List.mem_append.1 hx with hx | hx
        · rw [List.eq_of_mem_replicate hx]; decide
        · exact digitValue_of_mem (natText_digits n x hx)
      have hz : ∀ k, readDigits 0 (List.replicate k '0' ++ natText n) = some n := by
        intro k
        induction k with
        | zero => exact readDigits_natText n
        | succ k ih =>
          rw [List.replicate_succ, List.cons_append, readDigits]
          exact ih
      have hne : List.replicate k '0' ++ natText n ≠ [] := by simp [natText_ne_nil]
      have e1 : (List.replicate k '0' ++ natText n ++ c :: cs).takeWhile (fun c => (digitValue c).isSome) = List.replicate k '0' ++ natText n := by
        rw [List.takeWhile_append_of_pos hall]
        simp [List.takeWhile_cons, hc]
      have e2 : (List.replicate k '0' ++ natText n ++ c :: cs).dropWhile (fun c => (digitValue c).isSome) = c :: cs := by
        rw [List.dropWhile_append_of_pos hall]
        simp [List.dropWhile_cons, hc]
      unfold Freq.WrittenAs
      simp only [readFreq]
      rw [e] at hd ⊢
      simp only [e1, e2, hd, Option.bind_eq_bind, Option.bind_some, hne, if_false, readNat, hz, hf]
      rfl

/-- **C119.** A string is a way to write one frequency only. -/
theorem C119_unambiguous {f g : Freq} {s : Text} (hf : f.WrittenAs s) (hg : g.WrittenAs s) : f = g := by
  unfold Freq.WrittenAs at hf hg
  rw [hf] at hg
  injection hg with h
  injection h with h1 h2
  cases f; cases g
  simp only at h1 h2
  subst h1 h2
  rfl

/-- **C119.** The check which works on the strings, with a regular expression and calling itself, comes to an end and decides about
the frequencies which are written. -/
theorem C119_check {valid : Text → Bool} (hv : AcceptsWritten valid) {k : Nat} (hk : 2 ≤ k) {f g : Freq} {s t : Text} (hs : f.WrittenAs s)
    (ht : g.WrittenAs t) : checkGroupbyText valid k s t = .ok (checkGroupbyFreq f g) := by
  obtain ⟨j, rfl⟩ : ∃ j, k = j + 2 := ⟨k - 2, by omega⟩
  exact checkGroupbyText_read hv j hs ht

/-- **C119.** Zeros before the factor make no difference. -/
theorem C119_zeros {valid : Text → Bool} (hv : AcceptsWritten valid) {k : Nat} (hk : 2 ≤ k) {f g : Freq} {s t : Text} (hs : f.WrittenAs s)
    (ht : g.WrittenAs t) {i j : Nat} (hi : f.factor = none → i = 0) (hj : g.factor = none → j = 0) :
    checkGroupbyText valid k (List.replicate i '0' ++ s) (List.replicate j '0' ++ t) = checkGroupbyText valid k s t := by
  have key : ∀ {f : Freq} {s : Text} {i : Nat}, f.WrittenAs s → (f.factor = none → i = 0) → f.WrittenAs (List.replicate i '0' ++ s) := by
    intro f s i h hi
    rw [C119_ways] at h ⊢
    rcases h with ⟨h1, h2⟩ | ⟨n, k, h1, h2⟩
    · left; rw [hi h1]; exact ⟨h1, h2⟩
    · right
      refine ⟨n, i + k, h1, ?_⟩
      rw [h2]
      simp only [← List.append_assoc, List.replicate_append_replicate]
  rw [C119_check hv hk hs ht, C119_check hv hk (key hs hi) (key ht hj)]

/-- **C119.** A factor 1 which is written out makes a difference to the check, though the periods are the same: neither a marker nor
base units written in this way are accepted with frequencies without a factor or with the factor 1. -/
theorem C119_written_one {valid : Text → Bool} (hv : AcceptsWritten valid) {k : Nat} (hk : 2 ≤ k) (bu gb : Denom) :
    checkGroupbyText valid k ('1' :: bu.text) gb.text = .ok false ∧ checkGroupbyText valid k bu.text ('1' :: gb.text) = .ok false ∧
    checkGroupbyText valid k ('1' :: bu.text) ('1' :: gb.text) = .ok false ∧
    Freq.SameAs ⟨some 1, bu, by simp⟩ bu.freq := by
  have w1 : ∀ d : Denom, Freq.WrittenAs ⟨some 1, d, by simp⟩ ('1' :: d.text) := by
    intro d
    rw [C119_ways]
    right
    refine ⟨1, 0, rfl, ?_⟩
    have : natText 1 = ['1'] := by decide +kernel
    simp [this]
  have h0 : ∀ (a b : Freq), a.mult = 1 → b.mult = 1 → (a.factor.isSome || b.factor.isSome) = true → checkGroupbyFreq a b = false := by
    intro a b ha hb hs
    have e : isSubperiod a b = false := by unfold isSubperiod; rw [if_pos hs]
    unfold checkGroupbyFreq
    rw [e, ha, hb]
    simp
  refine ⟨?_, ?_, ?_, ?_⟩
  · rw [C119_check hv hk (w1 bu) (writtenAs_name gb), h0 _ _ rfl rfl rfl]
  · rw [C119_check hv hk (writtenAs_name bu) (w1 gb), h0 _ _ rfl rfl rfl]
  · rw [C119_check hv hk (w1 bu) (w1 gb), h0 _ _ rfl rfl rfl]
  · exact (C109_which _ _).2 ⟨rfl, Or.inl rfl⟩

/-- Strings of digits and a name are accepted by pandas. -/
def writtenFreqs (s : Text) : Bool := match readFreq s with
  | some (fac, _) => decide (fac ≠ some 0)
  | none => false

example : AcceptsWritten writtenFreqs := fun f s h => by
  unfold Freq.WrittenAs at h
  simp [writtenFreqs, h, f.pos]

example : checkGroupbyText writtenFreqs 2 "D".toList "W-SUN".toList = .ok true ∧
    checkGroupbyText writtenFreqs 2 "2D".toList "06D".toList = .ok true ∧
    checkGroupbyText writtenFreqs 2 "D".toList "2W".toList = .ok true ∧
    checkGroupbyText writtenFreqs 1 "D".toList "2W".toList = .error .runtimeError ∧
    checkGroupbyText writtenFreqs 2 "2D".toList "2W".toList = .ok false ∧
    checkGroupbyText writtenFreqs 2 "1D".toList "W".toList = .ok false ∧
    checkGroupbyText writtenFreqs 2 "min".toList "D".toList = .ok false ∧
    checkGroupbyText writtenFreqs 2 "Q-MAR".toList "A-DEC".toList = .ok true ∧
    checkGroupbyText writtenFreqs 2 "Q-MAR".toList "12M".toList = .ok false := by decide +kernel

/-- `'002W-SUN'`. -/
example : Freq.WrittenAs ⟨some 2, .W (some 6), by simp⟩ "002W-SUN".toList := by unfold Freq.WrittenAs; decide +kernel

end TB
