/-! Ratios of integers. -/
namespace TB

theorem ratio_nonneg {n d : Int} (h : 0 ≤ n) (hd : 0 < d) : 0 ≤ (n:Rat)/(d:Rat) := by
  have h1 : (0:Rat) < (d:Rat) := by exact_mod_cast hd
  have h' : (0:Rat) ≤ n := by exact_mod_cast h
  rw [← Rat.not_lt, Rat.div_lt_iff h1]
  grind

theorem ratio_le_one {n d : Int} (h : n ≤ d) (hd : 0 < d) : (n:Rat)/(d:Rat) ≤ 1 := by
  have h1 : (0:Rat) < (d:Rat) := by exact_mod_cast hd
  have h' : (n:Rat) ≤ d := by exact_mod_cast h
  rw [← Rat.not_lt, Rat.lt_div_iff h1]
  grind

theorem ratio_one_iff {n d : Int} (hd : 0 < d) : (n:Rat)/(d:Rat) = 1 ↔ n = d := by
  have h1 : (0:Rat) < (d:Rat) := by exact_mod_cast hd
  have h2 : (d:Rat) ≠ 0 := by grind
  constructor
  · intro h
    have : (n:Rat) = d := by grind
    exact_mod_cast this
  · intro h; subst h; grind

theorem ratio_add {n m d : Int} : (n:Rat)/(d:Rat) + (m:Rat)/(d:Rat) = ((n + m : Int) : Rat)/(d:Rat) := by
  rw [Rat.div_def, Rat.div_def, Rat.div_def, Rat.intCast_add, Rat.add_mul]

end TB
