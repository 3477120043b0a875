import Verif.Model.Freq
/-! Calendar frequencies by their meaning: what it takes to be made of another one. -/
namespace TB

/-- The kind of a period, whatever the day or month it ends with. -/
def Denom.kind : Denom → Fin 8
  | .S => 0 | .T => 1 | .H => 2 | .D => 3 | .W _ => 4 | .M => 5 | .Q _ => 6 | .A _ => 7 | .min => 1 | .Y _ => 7

/-- Every period of the second denomination starts at the start of some period of the first one; hence it consists of whole
periods of the first one. -/
def Denom.Divides (bu gb : Denom) : Prop := ∀ o : Int, ∃ o' : Int, gb.base.startOf o = bu.base.startOf o'

/-- The other names of 'T' and 'A'. -/
def Denom.Alias : Denom → Prop
  | .min | .Y _ => True
  | _ => False

/-- The periods which may be counted in an interval: 'S', 'T', 'min', 'H', 'D', 'W', 'M', 'Q', 'A' and 'Y', as they are written. -/
def countable : List Freq := [Denom.S, .T, .min, .H, .D, .W none, .M, .Q none, .A none, .Y none].map Denom.freq

end TB
