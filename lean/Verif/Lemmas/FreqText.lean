import Verif.Spec.FreqText
import Verif.Lemmas.Text
import Verif.Props.Frequencies
/-! Reading frequency strings: lemmas for `Props/FreqText.lean`. -/
namespace TB

theorem isDigitChar_iff (c : Char) : isDigitChar c = (digitValue c).isSome := by
  have h1 : ∀ c ∈ digits, isDigitChar c = true ∧ (digitValue c).isSome = true := by decide
  have h2 : ∀ n : Fin 10, (Char.ofNat (48 + n)) ∈ digits := by decide
  by_cases hc : c ∈ digits
  · rw [(h1 c hc).1, (h1 c hc).2]
  · have e1 : isDigitChar c = false := by
      cases h : isDigitChar c with
      | false => rfl
      | true =>
        simp only [isDigitChar, Bool.and_eq_true, decide_eq_true_eq] at h
        have := h2 ⟨c.toNat - 48, by omega⟩
        simp only [show 48 + (c.toNat - 48) = c.toNat by omega, Char.ofNat_toNat] at this
        exact absurd this hc
    have e2 : digitValue c = none := by
      simp only [digitValue, List.findIdx?_eq_none_iff]
      intro x hx
      cases h : (x == c) with
      | false => rfl
      | true => rw [beq_iff_eq] at h; subst h; exact absurd hx hc
    rw [e1, e2]; rfl

theorem digitFun : isDigitChar = fun c => (digitValue c).isSome := funext isDigitChar_iff

theorem digitValue_code {c : Char} (h : isDigitChar c = true) : digitValue c = some (c.toNat - 48) := by
  have hd : c ∈ digits := by
    rw [isDigitChar_iff] at h
    obtain ⟨n, hn⟩ := Option.isSome_iff_exists.1 h
    simp only [digitValue] at hn
    obtain ⟨hlt, hp, _⟩ := List.findIdx?_eq_some_iff_getElem.1 hn
    rw [beq_iff_eq] at hp
    rw [← hp]; exact List.getElem_mem hlt
  have : ∀ c ∈ digits, digitValue c = some (c.toNat - 48) := by decide
  exact this c hd

theorem readDigits_code (s : Text) (n : Nat) (h : ∀ c ∈ s, isDigitChar c = true) :
    readDigits n s = some (s.foldl (fun n c => 10 * n + (c.toNat - 48)) n) := by
  induction s generalizing n with
  | nil => rfl
  | cons c cs ih =>
    simp only [readDigits, digitValue_code (h c (by simp)), Option.bind_some, List.foldl_cons]
    exact ih _ (fun x hx => h x (by simp [hx]))

theorem readDenom_inv {s : Text} {d : Denom} (h : readDenom s = some d) : s = d.text := by
  simp only [readDenom, Option.map_eq_some_iff] at h
  obtain ⟨p, hp, rfl⟩ := h
  have h1 := List.find?_some hp
  have h2 := List.mem_of_find?_eq_some hp
  have : ∀ p ∈ denominations, p.1.toList = p.2.text := by decide +kernel
  rw [beq_iff_eq] at h1
  rw [← h1, this p h2]

theorem mem_takeWhile_of {p : Char → Bool} {c : Char} : ∀ {s : Text}, c ∈ s.takeWhile p → p c = true
  | x :: xs, h => by
    rw [List.takeWhile_cons] at h
    split at h
    · rename_i hx
      rcases List.mem_cons.1 h with rfl | h
      · exact hx
      · exact mem_takeWhile_of h
    · simp at h

/-- A string read is digits followed by a name. -/
theorem readFreq_inv {s : Text} {fac : Option Nat} {d : Denom} (h : readFreq s = some (fac, d)) :
    s = s.takeWhile isDigitChar ++ d.text ∧ s.dropWhile isDigitChar = d.text ∧
      ((s.takeWhile isDigitChar = [] ∧ fac = none) ∨
        (s.takeWhile isDigitChar ≠ [] ∧ fac = some (intOfDigits (s.takeWhile isDigitChar)))) := by
  simp only [readFreq, ← digitFun, Option.bind_eq_bind, Option.bind_eq_some_iff, pure, Option.some.injEq, Prod.mk.injEq] at h
  obtain ⟨d', hd, h1, rfl⟩ := h
  have e := readDenom_inv hd
  refine ⟨?_, e, ?_⟩
  · rw [← e]; exact (List.takeWhile_append_dropWhile).symm
  · by_cases h0 : s.takeWhile isDigitChar = []
    · left; rw [if_pos h0] at h1; exact ⟨h0, h1.symm⟩
    · right
      rw [if_neg h0] at h1
      refine ⟨h0, ?_⟩
      rw [← h1, readNat, if_neg h0, readDigits_code _ _ (fun c hc => mem_takeWhile_of hc)]
      rfl

/-- What the regular expression finds in a string read. -/
theorem matchFreq_read {s : Text} {fac : Option Nat} {d : Denom} (h : readFreq s = some (fac, d)) :
    (d.capital = true → ∃ ds, matchFreq s = some (ds, d.text) ∧ (if ds == [] then 1 else intOfDigits ds) = fac.getD 1) ∧
    (d.capital = false → matchFreq s = none) := by
  obtain ⟨_, e, hf⟩ := readFreq_inv h
  have key : ∀ d ∈ allDenoms, d.text.takeWhile isFreqLetter = (if d.capital then d.text else []) ∧ d.text ≠ [] := by decide +kernel
  obtain ⟨k1, k2⟩ := key d (mem_allDenoms d)
  constructor
  · intro hc
    rw [if_pos hc] at k1
    refine ⟨s.takeWhile isDigitChar, ?_, ?_⟩
    · simp only [matchFreq, e, k1]
      split
      · rename_i h'; exact absurd h' k2
      · rename_i h'; rw [h']
    · rcases hf with ⟨h0, rfl⟩ | ⟨h0, rfl⟩
      · simp [h0]
      · rw [if_neg (by simpa using h0)]; rfl
  · intro hc
    rw [hc] at k1
    simp only [matchFreq, e, k1]
    rfl

/-- Names alone. -/
theorem isSubperiodText_names (a b : Denom) : isSubperiodText a.text b.text = .ok (isSubperiod a.freq b.freq) := by
  have : ∀ a ∈ allDenoms, ∀ b ∈ allDenoms, isSubperiodText a.text b.text = .ok (isSubperiod a.freq b.freq) := by decide +kernel
  exact this a (mem_allDenoms a) b (mem_allDenoms b)

theorem toUpper_digit {c : Char} (h : isDigitChar c = true) : c.toUpper = c := by
  have hd : c ∈ digits := by
    have := digitValue_code h
    simp only [digitValue] at this
    obtain ⟨hlt, hp, _⟩ := List.findIdx?_eq_some_iff_getElem.1 this
    rw [beq_iff_eq] at hp
    rw [← hp]; exact List.getElem_mem hlt
  have : ∀ c ∈ digits, c.toUpper = c := by decide
  exact this c hd

/-- A digit at the beginning is not the beginning of any name. -/
theorem digit_ne {c x : Char} (h : isDigitChar c = true) (hx : isDigitChar x = false) : (c == x) = false := by
  cases hcx : c == x with
  | false => rfl
  | true => rw [beq_iff_eq] at hcx; subst hcx; rw [h] at hx; cases hx

theorem oneOf_digit {c : Char} (h : isDigitChar c = true) (names : String) (hn : names.toList.all (fun x => !isDigitChar x) = true) (r : Text) :
    oneOf names (c :: r) = false := by
  unfold oneOf
  rw [List.any_eq_false]
  intro x hx
  have := List.all_eq_true.1 hn x hx
  simp only [Bool.not_eq_true'] at this
  intro e
  rw [beq_iff_eq] at e
  injection e with e1
  subst e1
  rw [h] at this; cases this

theorem names_digit {c : Char} (h : isDigitChar c = true) (r : Text) :
    isAnnualText (c :: r) = false ∧ isQuarterlyText (c :: r) = false ∧ isMonthlyText (c :: r) = false ∧ isWeeklyText (c :: r) = false ∧
    ∀ x, isDigitChar x = false → ((c :: r : Text) == [x]) = false := by
  have n : ∀ x, isDigitChar x = false → (x == c) = false ∧ (c == x) = false := fun x hx =>
    ⟨by rw [Bool.beq_comm]; exact digit_ne h hx, digit_ne h hx⟩
  have hA := n 'A' (by decide)
  have hQ := n 'Q' (by decide)
  have hB := n 'B' (by decide)
  have hM := n 'M' (by decide)
  have hW := n 'W' (by decide)
  have l : ∀ (s : String) (x : Char) (xs : Text), s.toList = x :: xs → isDigitChar x = false →
      ((c :: r : Text) == s.toList) = false ∧ s.toList.isPrefixOf (c :: r) = false := by
    intro s x xs e hx
    rw [e]
    simp [List.isPrefixOf, (n x hx).1, (n x hx).2]
  refine ⟨?_, ?_, ?_, ?_, ?_⟩
  · simp only [isAnnualText, (l "A" 'A' [] (by decide) (by decide)).1, (l "A-" 'A' ['-'] (by decide) (by decide)).2, Bool.or_self]
  · simp only [isQuarterlyText, (l "Q" 'Q' [] (by decide) (by decide)).1, (l "Q-" 'Q' ['-'] (by decide) (by decide)).2,
      (l "BQ" 'B' ['Q'] (by decide) (by decide)).2, Bool.or_self]
  · simp only [isMonthlyText, (l "M" 'M' [] (by decide) (by decide)).1, (l "BM" 'B' ['M'] (by decide) (by decide)).1, Bool.or_self]
  · simp only [isWeeklyText, (l "W" 'W' [] (by decide) (by decide)).1, (l "W-" 'W' ['-'] (by decide) (by decide)).2, Bool.or_self]
  · intro x hx
    simp [(n x hx).2]

/-- A target with a factor is not known. -/
theorem isSubperiodText_target {c : Char} (h : isDigitChar c = true) (s r : Text) : isSubperiodText s (c :: r) = .ok false := by
  obtain ⟨n1, n2, n3, n4, n5⟩ := names_digit h (r.map Char.toUpper)
  simp only [isSubperiodText, List.map_cons, toUpper_digit h, n1, n2, n3, n4, n5 'B' (by decide), n5 'C' (by decide), n5 'D' (by decide),
    n5 'H' (by decide), n5 'T' (by decide), n5 'S' (by decide), n5 'L' (by decide), n5 'U' (by decide), n5 'N' (by decide), Bool.false_eq_true, if_false]

/-- A source with a factor is not a subperiod of any name. -/
theorem isSubperiodText_source {c : Char} (h : isDigitChar c = true) (r : Text) (d : Denom) : isSubperiodText (c :: r) d.text = .ok false := by
  obtain ⟨n1, n2, n3, n4, n5⟩ := names_digit h (r.map Char.toUpper)
  have o : ∀ names : String, names.toList.all (fun x => !isDigitChar x) = true → oneOf names (c :: r.map Char.toUpper) = false :=
    fun names hn => oneOf_digit h names hn _
  obtain ⟨x, xs, e, hx⟩ : ∃ x xs, d.text.map Char.toUpper = x :: xs ∧ isDigitChar x = false := by
    have : ∀ d ∈ allDenoms, ∃ x xs, d.text.map Char.toUpper = x :: xs ∧ isDigitChar x = false := by
      have h2 : ∀ d ∈ allDenoms, (d.text.map Char.toUpper) ≠ [] ∧ ∀ x ∈ (d.text.map Char.toUpper).head?, isDigitChar x = false := by decide +kernel
      intro d hd
      obtain ⟨g1, g2⟩ := h2 d hd
      cases e : d.text.map Char.toUpper with
      | nil => exact absurd e g1
      | cons x xs => rw [e] at g2; exact ⟨x, xs, rfl, g2 x rfl⟩
    exact this d (mem_allDenoms d)
  have hne : ((c :: r.map Char.toUpper : Text) == d.text.map Char.toUpper) = false := by
    rw [e]
    have := digit_ne h hx
    simp [this]
  simp only [isSubperiodText, List.map_cons, toUpper_digit h, n2, hne, o "DCBMHTSLUN" (by decide), o "DCBHTSLUN" (by decide), o "BHTSLUN" (by decide),
    o "CHTSLUN" (by decide), o "DHTSLUN" (by decide), o "HTSLUN" (by decide), o "TSLUN" (by decide), o "SLUN" (by decide), o "LUN" (by decide),
    o "UN" (by decide), o "N" (by decide), Bool.false_eq_true, if_false, Bool.or_self, ite_self]

/-- `is_subperiod` on strings. -/
theorem isSubperiodText_read {f g : Freq} {s t : Text} (hs : f.WrittenAs s) (ht : g.WrittenAs t) : isSubperiodText s t = .ok (isSubperiod f g) := by
  obtain ⟨e1, _, h1⟩ := readFreq_inv hs
  obtain ⟨e2, _, h2⟩ := readFreq_inv ht
  rcases h2 with ⟨z2, f2⟩ | ⟨z2, f2⟩
  · rw [z2, List.nil_append] at e2
    rcases h1 with ⟨z1, f1⟩ | ⟨z1, f1⟩
    · rw [z1, List.nil_append] at e1
      rw [e1, e2, isSubperiodText_names]
      simp [isSubperiod, f1, f2, Denom.freq]
    · cases e : s.takeWhile isDigitChar with
      | nil => exact absurd e z1
      | cons c cs =>
        have hc : isDigitChar c = true := mem_takeWhile_of (s := s) (by rw [e]; simp)
        rw [e1, e2, e, List.cons_append, isSubperiodText_source hc]
        simp [isSubperiod, f1]
  · cases e : t.takeWhile isDigitChar with
    | nil => exact absurd e z2
    | cons c cs =>
      have hc : isDigitChar c = true := mem_takeWhile_of (s := t) (by rw [e]; simp)
      rw [e2, e, List.cons_append, isSubperiodText_target hc]
      simp [isSubperiod, f2]

theorem writtenAs_name (d : Denom) : d.freq.WrittenAs d.text := by
  have := readFreq_text d.freq
  simpa [Freq.text, Denom.freq, Freq.WrittenAs] using this

/-- The check on strings without factors. -/
theorem checkGroupbyText_names {valid : Text → Bool} (hv : AcceptsWritten valid) (k : Nat) (a b : Denom) :
    checkGroupbyText valid (k + 1) a.text b.text = .ok (isSubperiod a.freq b.freq) := by
  simp only [checkGroupbyText, isSubperiodText_names]
  cases hsub : isSubperiod a.freq b.freq with
  | true => rfl
  | false =>
    simp only [hv _ _ (writtenAs_name b), Bool.true_eq_false, if_false]
    have ma := matchFreq_read (writtenAs_name a)
    have mb := matchFreq_read (writtenAs_name b)
    simp only [Denom.freq] at ma mb
    cases ca : a.capital with
    | false => simp only [ma.2 ca]
    | true =>
      cases cb : b.capital with
      | false => simp only [mb.2 cb]; split <;> first | rfl | (rename_i h; cases h)
      | true =>
        obtain ⟨x, hx, fx⟩ := ma.1 ca
        obtain ⟨y, hy, fy⟩ := mb.1 cb
        simp only [hx, hy]
        rw [fx, fy]
        rfl

theorem text_injective {a b : Denom} (h : a.text = b.text) : a = b := by
  have := readDenom_text a
  rw [h, readDenom_text b] at this
  injection this with e
  exact e.symm

/-- The check on strings. -/
theorem checkGroupbyText_read {valid : Text → Bool} (hv : AcceptsWritten valid) (k : Nat) {f g : Freq} {s t : Text} (hs : f.WrittenAs s)
    (ht : g.WrittenAs t) : checkGroupbyText valid (k + 2) s t = .ok (checkGroupbyFreq f g) := by
  rw [checkGroupbyText]
  simp only [isSubperiodText_read hs ht]
  unfold checkGroupbyFreq
  cases hsub : isSubperiod f g with
  | true => simp
  | false =>
    simp only [hv _ _ ht, Bool.true_eq_false, if_false, Bool.false_eq_true]
    have ma := matchFreq_read hs
    have mb := matchFreq_read ht
    cases ca : f.denom.capital with
    | false => simp [ma.2 ca]
    | true =>
      cases cb : g.denom.capital with
      | false => simp only [mb.2 cb]; split <;> first | rfl | (rename_i h; cases h)
      | true =>
        obtain ⟨x, hx, fx⟩ := ma.1 ca
        obtain ⟨y, hy, fy⟩ := mb.1 cb
        simp only [hx, hy]
        rw [fx, fy]
        change (if f.mult == 1 && g.mult == 1 then _ else _) = _
        simp only [Bool.and_self, Bool.not_true, Bool.false_eq_true, if_false]
        by_cases h1 : (f.mult == 1 && g.mult == 1) = true
        · rw [if_pos h1, if_pos h1]
        · rw [if_neg h1, if_neg h1]
          by_cases h2 : f.denom = g.denom
          · have hpos : (f.mult == 0) = false := by
              have := f.pos
              unfold Freq.mult
              cases hf : f.factor with
              | none => rfl
              | some n => rw [hf] at this; simp at this ⊢; exact this
            simp only [h2, beq_self_eq_true, if_true]
            change (if f.mult == 0 then _ else _) = _
            rw [hpos]; rfl
          · have h3 : (f.denom.text == g.denom.text) = false := by
              rw [beq_eq_false_iff_ne]; exact fun e => h2 (text_injective e)
            have h4 : (f.denom == g.denom) = false := by rw [beq_eq_false_iff_ne]; exact h2
            simp only [h3, h4, Bool.false_eq_true, if_false]
            change (if f.mult == 1 then _ else _) = _
            rw [checkGroupbyText_names hv]
            split <;> rfl

end TB
