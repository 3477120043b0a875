import Verif.Model.Floats
import Verif.Spec.Floats
/-! The rounding of binary64 is a rounding. -/
namespace TB

theorem rat_trichotomy (x y : Rat) : x < y ∨ x = y ∨ y < x := by grind

theorem two_zpow_pos (k : Int) : 0 < (2 : Rat) ^ k := Rat.zpow_pos (by decide)

theorem two_zpow_add (a b : Int) : (2 : Rat) ^ (a + b) = 2 ^ a * 2 ^ b := Rat.zpow_add (by decide) a b

theorem two_zpow_nat (n : Nat) : (2 : Rat) ^ (n : Int) = ((2 ^ n : Nat) : Rat) := by
  rw [Rat.zpow_natCast, Rat.natCast_pow]; rfl

theorem two_zpow_int (n : Nat) : (2 : Rat) ^ (n : Int) = ((2 ^ n : Int) : Rat) := by
  rw [Rat.zpow_natCast, Rat.intCast_pow]; rfl

theorem one_le_two_zpow {k : Int} (h : 0 ≤ k) : 1 ≤ (2 : Rat) ^ k := by
  obtain ⟨n, rfl⟩ := Int.eq_ofNat_of_zero_le h
  have := Nat.one_le_two_pow (n := n)
  show 1 ≤ (2 : Rat) ^ (n : Int)
  rw [two_zpow_nat]
  exact_mod_cast this

theorem two_zpow_le {a b : Int} (h : a ≤ b) : (2 : Rat) ^ a ≤ 2 ^ b := by
  have e : b = a + (b - a) := by omega
  rw [e, two_zpow_add]
  have h1 := one_le_two_zpow (k := b - a) (by omega)
  have h2 := Rat.mul_le_mul_of_nonneg_left h1 (Rat.le_of_lt (two_zpow_pos a))
  grind

theorem two_zpow_lt_iff {a b : Int} : (2 : Rat) ^ a < 2 ^ b ↔ a < b := by
  constructor
  · intro h
    rcases Int.lt_or_le a b with h' | h'
    · exact h'
    · exact absurd (two_zpow_le h') (Rat.not_le.2 h)
  · intro h
    have h1 := two_zpow_le (a := a + 1) (b := b) (by omega)
    rw [two_zpow_add, Rat.zpow_one] at h1
    have := two_zpow_pos a
    grind

theorem Rat.floor_between (x : Rat) : (x.floor : Rat) ≤ x ∧ x < (x.floor : Rat) + 1 := by
  refine ⟨Rat.floor_le x, ?_⟩
  have := Rat.lt_floor_add_one x
  rw [Rat.intCast_add] at this
  exact this

theorem nearestInt_near (x : Rat) : x - 1 / 2 ≤ (nearestInt x : Rat) ∧ (nearestInt x : Rat) ≤ x + 1 / 2 := by
  obtain ⟨h1, h2⟩ := Rat.floor_between x
  unfold nearestInt
  simp only
  split
  · grind
  · split
    · rw [Rat.intCast_add]; grind
    · split
      · grind
      · rw [Rat.intCast_add]; grind

theorem nearestInt_int (n : Int) : nearestInt (n : Rat) = n := by
  unfold nearestInt
  simp only [Rat.floor_intCast]
  rw [if_pos]
  grind

theorem nearestInt_mono {x y : Rat} (h : x ≤ y) : nearestInt x ≤ nearestInt y := by
  have hf := Rat.floor_monotone h
  have a1 : ∀ z : Rat, z.floor ≤ nearestInt z ∧ nearestInt z ≤ z.floor + 1 := by
    intro z
    unfold nearestInt
    simp only
    split
    · omega
    · split
      · omega
      · split <;> omega
  rcases Int.lt_or_eq_of_le hf with hlt | heq
  · have := a1 x; have := a1 y; omega
  · unfold nearestInt
    simp only [heq]
    split
    · split
      · omega
      · split
        · omega
        · split <;> omega
    · split
      · rw [if_neg (by grind), if_pos (by grind)]; omega
      · split
        · split
          · grind
          · split <;> omega
        · split
          · grind
          · split <;> omega

/-- The exponent is what it should be. -/
theorem exponent_spec {x : Rat} (h : 0 < x) : (2 : Rat) ^ exponent x ≤ x ∧ x < 2 ^ (exponent x + 1) := by
  have hnum : 0 < x.num := by
    have h1 := Rat.num_nonneg.2 (Rat.le_of_lt h)
    have h2 : x.num ≠ 0 := fun h0 => by have := Rat.num_eq_zero.1 h0; grind
    omega
  have hden : 0 < x.den := x.den_pos
  have n0 : x.num.natAbs ≠ 0 := by omega
  have d0 : x.den ≠ 0 := by omega
  obtain ⟨a, ha⟩ : ∃ a, a = x.num.natAbs.log2 := ⟨_, rfl⟩
  obtain ⟨b, hb⟩ : ∃ b, b = x.den.log2 := ⟨_, rfl⟩
  have a1 : 2 ^ a ≤ x.num.natAbs := by rw [ha]; exact Nat.log2_self_le n0
  have a2 : x.num.natAbs < 2 ^ (a + 1) := by rw [ha]; exact Nat.lt_log2_self
  have b1 : 2 ^ b ≤ x.den := by rw [hb]; exact Nat.log2_self_le d0
  have b2 : x.den < 2 ^ (b + 1) := by rw [hb]; exact Nat.lt_log2_self
  have hx : x * (x.den : Rat) = (x.num.natAbs : Rat) := by
    have e : ((x.num.natAbs : Nat) : Rat) = ((x.num : Int) : Rat) := by
      rw [← Rat.intCast_natCast]; congr 1; omega
    rw [e]
    have h1 : x * ((x.den : Int) : Rat) = (x.num : Rat) := by
      conv => lhs; lhs; rw [← Rat.num_divInt_den x, Rat.divInt_eq_div]
      exact Rat.div_mul_cancel (by rw [Rat.intCast_natCast]; exact_mod_cast d0)
    rwa [Rat.intCast_natCast] at h1
  have A1 : (2 : Rat) ^ (a : Int) ≤ (x.num.natAbs : Rat) := by rw [two_zpow_nat]; exact_mod_cast a1
  have A2 : (x.num.natAbs : Rat) < (2 : Rat) ^ ((a : Int) + 1) := by
    have := two_zpow_nat (a + 1)
    rw [show ((a + 1 : Nat) : Int) = (a : Int) + 1 from rfl] at this
    rw [this]; exact_mod_cast a2
  have B1 : (2 : Rat) ^ (b : Int) ≤ (x.den : Rat) := by rw [two_zpow_nat]; exact_mod_cast b1
  have B2 : (x.den : Rat) < (2 : Rat) ^ ((b : Int) + 1) := by
    have := two_zpow_nat (b + 1)
    rw [show ((b + 1 : Nat) : Int) = (b : Int) + 1 from rfl] at this
    rw [this]; exact_mod_cast b2
  have hdp : 0 < (x.den : Rat) := by exact_mod_cast hden
  -- `2 ** (a - b - 1) < x < 2 ** (a - b + 1)`
  have up : x < 2 ^ ((a : Int) - b + 1) := by
    have p := two_zpow_pos ((a : Int) - b + 1)
    have e : (2 : Rat) ^ ((a : Int) - b + 1) * 2 ^ (b : Int) = 2 ^ ((a : Int) + 1) := by rw [← two_zpow_add]; congr 1; omega
    refine Rat.not_le.1 (fun hle => ?_)
    · have m1 := Rat.mul_le_mul_of_nonneg_left B1 (Rat.le_of_lt p)
      have m2 := Rat.mul_le_mul_of_nonneg_right hle (Rat.le_of_lt hdp)
      grind
  have lw : 2 ^ ((a : Int) - b - 1) < x := by
    have p := two_zpow_pos ((a : Int) - b - 1)
    have e : (2 : Rat) ^ ((a : Int) - b - 1) * 2 ^ ((b : Int) + 1) = 2 ^ (a : Int) := by rw [← two_zpow_add]; congr 1; omega
    refine Rat.not_le.1 (fun hle => ?_)
    · have m1 := Rat.mul_lt_mul_of_pos_left B2 p
      have m2 := Rat.mul_le_mul_of_nonneg_right hle (Rat.le_of_lt hdp)
      grind
  unfold exponent
  rw [← ha, ← hb]
  simp only
  split
  · exact ⟨‹_›, up⟩
  · rename_i hn
    refine ⟨Rat.le_of_lt lw, ?_⟩
    rw [show (a : Int) - b - 1 + 1 = (a : Int) - b by omega]
    exact Rat.not_le.1 hn

theorem div_two_zpow (x : Rat) (e : Int) : x / 2 ^ e = x * 2 ^ (-e) := by
  rw [Rat.zpow_neg, Rat.div_def]

/-- The significand before rounding. -/
theorem significand_spec {x : Rat} (h : 0 < x) :
    (2 : Rat) ^ (52 : Int) ≤ x / 2 ^ (exponent x - 52) ∧ x / 2 ^ (exponent x - 52) < 2 ^ (53 : Int) := by
  obtain ⟨h1, h2⟩ := exponent_spec h
  rw [div_two_zpow]
  have p := two_zpow_pos (-(exponent x - 52))
  have e1 : (2 : Rat) ^ exponent x * 2 ^ (-(exponent x - 52)) = 2 ^ (52 : Int) := by rw [← two_zpow_add]; congr 1; omega
  have e2 : (2 : Rat) ^ (exponent x + 1) * 2 ^ (-(exponent x - 52)) = 2 ^ (53 : Int) := by rw [← two_zpow_add]; congr 1; omega
  have m1 := Rat.mul_le_mul_of_nonneg_right h1 (Rat.le_of_lt p)
  have m2 := Rat.mul_lt_mul_of_pos_right h2 p
  rw [e1] at m1
  rw [e2] at m2
  exact ⟨m1, m2⟩

theorem two52 : (2 : Rat) ^ (52 : Int) = ((4503599627370496 : Int) : Rat) := by
  exact two_zpow_int 52

theorem two53 : (2 : Rat) ^ (53 : Int) = ((9007199254740992 : Int) : Rat) := by
  exact two_zpow_int 53

theorem nearestInt_significand {x : Rat} (h : 0 < x) :
    4503599627370496 ≤ nearestInt (x / 2 ^ (exponent x - 52)) ∧ nearestInt (x / 2 ^ (exponent x - 52)) ≤ 9007199254740992 := by
  obtain ⟨h1, h2⟩ := significand_spec h
  rw [two52] at h1
  rw [two53] at h2
  have a := nearestInt_mono h1
  have b := nearestInt_mono (Rat.le_of_lt h2)
  rw [nearestInt_int] at a b
  exact ⟨a, b⟩

theorem float64Pos_between {x : Rat} (h : 0 < x) :
    (2 : Rat) ^ exponent x ≤ float64Pos x ∧ float64Pos x ≤ 2 ^ (exponent x + 1) := by
  obtain ⟨h1, h2⟩ := nearestInt_significand h
  have p := two_zpow_pos (exponent x - 52)
  have e1 : ((4503599627370496 : Int) : Rat) * 2 ^ (exponent x - 52) = 2 ^ exponent x := by
    rw [← two52, ← two_zpow_add]; congr 1; omega
  have e2 : ((9007199254740992 : Int) : Rat) * 2 ^ (exponent x - 52) = 2 ^ (exponent x + 1) := by
    rw [← two53, ← two_zpow_add]; congr 1; omega
  have m1 := Rat.mul_le_mul_of_nonneg_right (Rat.intCast_le_intCast.2 h1) (Rat.le_of_lt p)
  have m2 := Rat.mul_le_mul_of_nonneg_right (Rat.intCast_le_intCast.2 h2) (Rat.le_of_lt p)
  rw [e1] at m1
  rw [e2] at m2
  unfold float64Pos
  exact ⟨m1, m2⟩

theorem float64Pos_mono {x y : Rat} (hx : 0 < x) (h : x ≤ y) : float64Pos x ≤ float64Pos y := by
  have hy : 0 < y := by grind
  obtain ⟨x1, x2⟩ := exponent_spec hx
  obtain ⟨y1, y2⟩ := exponent_spec hy
  have hle : exponent x < exponent y + 1 := two_zpow_lt_iff.1 (by grind)
  rcases Int.lt_or_eq_of_le (show exponent x ≤ exponent y by omega) with hlt | heq
  · have := (float64Pos_between hx).2
    have := (float64Pos_between hy).1
    have := two_zpow_le (a := exponent x + 1) (b := exponent y) (by omega)
    grind
  · unfold float64Pos
    rw [heq]
    have p := two_zpow_pos (exponent y - 52)
    refine Rat.mul_le_mul_of_nonneg_right (Rat.intCast_le_intCast.2 (nearestInt_mono ?_)) (Rat.le_of_lt p)
    rw [div_two_zpow, div_two_zpow]
    exact Rat.mul_le_mul_of_nonneg_right h (Rat.le_of_lt (two_zpow_pos _))

theorem float64Pos_near {x : Rat} (h : 0 < x) :
    (1 - 1 / 2 ^ 53) * x ≤ float64Pos x ∧ float64Pos x ≤ (1 + 1 / 2 ^ 53) * x := by
  obtain ⟨h1, h2⟩ := significand_spec h
  obtain ⟨z, hz⟩ : ∃ z, z = x / 2 ^ (exponent x - 52) := ⟨_, rfl⟩
  have hx : x = z * 2 ^ (exponent x - 52) := by
    rw [hz, div_two_zpow, Rat.mul_assoc, ← two_zpow_add]
    rw [show -(exponent x - 52) + (exponent x - 52) = 0 by omega, Rat.zpow_zero, Rat.mul_one]
  obtain ⟨n1, n2⟩ := nearestInt_near z
  rw [← hz, two52] at h1
  have p := two_zpow_pos (exponent x - 52)
  have k1 : (1 - 1 / 2 ^ 53) * z ≤ (nearestInt z : Rat) := by grind
  have k2 : (nearestInt z : Rat) ≤ (1 + 1 / 2 ^ 53) * z := by grind
  have m1 := Rat.mul_le_mul_of_nonneg_right k1 (Rat.le_of_lt p)
  have m2 := Rat.mul_le_mul_of_nonneg_right k2 (Rat.le_of_lt p)
  rw [Rat.mul_assoc, ← hx] at m1 m2
  unfold float64Pos
  simp only [← hz]
  exact ⟨m1, m2⟩

theorem float64Pos_exact {m : Int} {e : Int} (hm : 0 < m) (hm2 : m ≤ 9007199254740992) :
    float64Pos ((m : Rat) * 2 ^ e) = (m : Rat) * 2 ^ e := by
  have hmr : 0 < (m : Rat) := by exact_mod_cast hm
  have hx : 0 < (m : Rat) * 2 ^ e := Rat.mul_pos hmr (two_zpow_pos e)
  obtain ⟨h1, h2⟩ := exponent_spec hx
  generalize hk : exponent ((m : Rat) * 2 ^ e) = k at h1 h2
  have key : ∃ n : Int, (m : Rat) * 2 ^ e / 2 ^ (k - 52) = (n : Rat) := by
    rw [div_two_zpow, Rat.mul_assoc, ← two_zpow_add]
    rcases Int.lt_or_le (e + -(k - 52)) 0 with hlt | hle
    · -- the number is a power of two
      have hb : (m : Rat) ≤ 2 ^ (53 : Int) := by rw [two53]; exact Rat.intCast_le_intCast.2 hm2
      have m1 := Rat.mul_le_mul_of_nonneg_right hb (Rat.le_of_lt (two_zpow_pos e))
      rw [← two_zpow_add] at m1
      have m2 := two_zpow_le (a := 53 + e) (b := k) (by omega)
      have m3 : (m : Rat) * 2 ^ e = 2 ^ k := by grind
      refine ⟨4503599627370496, ?_⟩
      rw [two_zpow_add, ← Rat.mul_assoc, m3, ← two_zpow_add, ← two52]
      congr 1; omega
    · obtain ⟨j, hj⟩ := Int.eq_ofNat_of_zero_le hle
      rw [hj]
      refine ⟨m * 2 ^ j, ?_⟩
      rw [two_zpow_int, Rat.intCast_mul]
  obtain ⟨n, hn⟩ := key
  unfold float64Pos
  simp only [hk, hn, nearestInt_int]
  rw [← hn, div_two_zpow, Rat.mul_assoc, ← two_zpow_add, show -(k - 52) + (k - 52) = 0 by omega, Rat.zpow_zero, Rat.mul_one]

theorem float64_pos {x : Rat} (h : 0 < x) : float64 x = float64Pos x := by
  unfold float64
  rw [if_neg (by grind), if_pos h]

theorem float64_odd (x : Rat) : float64 (-x) = -float64 x := by
  unfold float64
  by_cases h0 : x = 0
  · subst h0; rfl
  · rw [if_neg (by grind), if_neg h0]
    by_cases hp : x > 0
    · rw [if_neg (by grind), if_pos hp, Rat.neg_neg]
    · rw [if_pos (by grind), if_neg hp, Rat.neg_neg]

theorem float64_zero : float64 0 = 0 := by unfold float64; rw [if_pos rfl]

theorem float64_pos_of_pos {x : Rat} (h : 0 < x) : 0 < float64 x := by
  rw [float64_pos h]
  have := (float64Pos_between h).1
  have := two_zpow_pos (exponent x)
  grind

theorem float64_neg_of_neg {x : Rat} (h : x < 0) : float64 x < 0 := by
  have e : x = -(-x) := by grind
  rw [e, float64_odd]
  have := float64_pos_of_pos (x := -x) (by grind)
  grind

theorem float64_mono {x y : Rat} (h : x ≤ y) : float64 x ≤ float64 y := by
  rcases rat_trichotomy x 0 with hx | hx | hx
  · have fx := float64_neg_of_neg hx
    rcases rat_trichotomy y 0 with hy | hy | hy
    · rw [show x = -(-x) by grind, show y = -(-y) by grind, float64_odd, float64_odd (-y),
        float64_pos (x := -x) (by grind), float64_pos (x := -y) (by grind)]
      have := float64Pos_mono (x := -y) (y := -x) (by grind) (by grind)
      grind
    · subst hy; rw [float64_zero]; grind
    · have := float64_pos_of_pos hy; grind
  · subst hx
    rw [float64_zero]
    by_cases hy : y = 0
    · subst hy; rw [float64_zero]; grind
    · have := float64_pos_of_pos (x := y) (by grind); grind
  · rw [float64_pos hx, float64_pos (by grind)]
    exact float64Pos_mono hx h

theorem float64_rounding : Rounding float64 53 where
  mono _ _ := float64_mono
  odd := float64_odd
  near x h := by
    by_cases h0 : x = 0
    · subst h0; rw [float64_zero]; grind
    · rw [float64_pos (by grind)]
      exact float64Pos_near (by grind)
  exact m e h := by
    have h' : m.natAbs ≤ 9007199254740992 := h
    rcases Int.lt_trichotomy m 0 with hm | hm | hm
    · have := float64Pos_exact (m := -m) (e := e) (by omega) (by omega)
      rw [Rat.intCast_neg] at this
      have p : 0 < -(m : Rat) * 2 ^ e := Rat.mul_pos (by have : (0 : Rat) < ((-m : Int) : Rat) := by exact_mod_cast (show 0 < -m by omega)
                                                         rwa [Rat.intCast_neg] at this) (two_zpow_pos e)
      rw [show (m : Rat) * 2 ^ e = -(-(m : Rat) * 2 ^ e) by grind, float64_odd, float64_pos p, this]
    · subst hm
      rw [show ((0 : Int) : Rat) * 2 ^ e = 0 by simp]
      exact float64_zero
    · rw [float64_pos (Rat.mul_pos (by exact_mod_cast hm) (two_zpow_pos e)), float64Pos_exact hm (by omega)]
  float x := by
    rcases rat_trichotomy x 0 with hx | hx | hx
    · have := nearestInt_significand (x := -x) (by grind)
      refine ⟨-nearestInt (-x / 2 ^ (exponent (-x) - 52)), exponent (-x) - 52, by show _ ≤ 9007199254740992; omega, ?_⟩
      rw [show x = -(-x) by grind, float64_odd, float64_pos (x := -x) (by grind), Rat.intCast_neg, Rat.neg_neg]
      unfold float64Pos
      simp only
      rw [Rat.neg_mul]
    · subst hx
      exact ⟨0, 0, by omega, by rw [float64_zero]; simp⟩
    · have := nearestInt_significand (x := x) hx
      refine ⟨nearestInt (x / 2 ^ (exponent x - 52)), exponent x - 52, by show _ ≤ 9007199254740992; omega, ?_⟩
      rw [float64_pos hx]; rfl

end TB
