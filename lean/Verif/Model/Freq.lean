import Verif.Model.Calendar
/-!
# Frequencies and calendar periods (as supplied by pandas)

A pandas period frequency is a positive multiplier and a base frequency.  A `Period` is an ordinal of
the base frequency; a period of a multiplied frequency starts with the base period of its ordinal and
lasts `mult` base periods.
-/
namespace TB

/-- Base frequencies of pandas periods accepted by the model: seconds, minutes, hours, days, weeks
ending on the given weekday (0 = Monday .. 6 = Sunday), months, quarters of a year ending with the given
month, years ending with the given month (0 = January .. 11 = December).
Simplification: 'B' and sub-second frequencies are left out. -/
inductive Base where
  | S | T | H | D
  | W (wend : Fin 7)
  | M
  | Q (mend : Fin 12)
  | A (mend : Fin 12)
  deriving DecidableEq, Repr

/-- Start time of the period with the given ordinal (`Period.start_time`). -/
def Base.startOf (b : Base) (o : Int) : Time :=
  match b with
  | .S => o * nsSec
  | .T => o * nsMin
  | .H => o * nsHour
  | .D => o * nsDay
  | .W e => (7 * o + ((e : Nat) : Int) - 2) * nsDay
  | .M => monthStart o * nsDay
  | .Q e => monthStart (3 * o + (((e : Nat) : Int) + 1) % 3) * nsDay
  | .A e => monthStart (12 * o + (((e : Nat) : Int) + 1) % 12) * nsDay

/-- Ordinal of the period containing a point in time (`pd.Period(ts, freq).ordinal`; the origin of the
numbering is immaterial). -/
def Base.ordOf (b : Base) (t : Time) : Int :=
  match b with
  | .S => t / nsSec
  | .T => t / nsMin
  | .H => t / nsHour
  | .D => t / nsDay
  | .W e => (t / nsDay - ((e : Nat) : Int) + 2) / 7
  | .M => monthOf (t / nsDay)
  | .Q e => (monthOf (t / nsDay) - (((e : Nat) : Int) + 1) % 3) / 3
  | .A e => (monthOf (t / nsDay) - (((e : Nat) : Int) + 1) % 12) / 12

/-- The textual denomination of a frequency string: `'W'` and `'W-SUN'` mean the same periods but are
different strings, which matters to `_check_groupby_freq`, as are `'T'` and `'min'`, `'A'` and `'Y'`. -/
inductive Denom where
  | S | T | H | D
  | W (sfx : Option (Fin 7))
  | M
  | Q (sfx : Option (Fin 12))
  | A (sfx : Option (Fin 12))
  | min
  | Y (sfx : Option (Fin 12))
  deriving DecidableEq, Repr

/-- Meaning of a denomination: 'W' is 'W-SUN', 'Q' is 'Q-DEC', 'A' is 'A-DEC', 'min' is 'T', 'Y' is 'A'. -/
def Denom.base : Denom → Base
  | .S => .S | .T => .T | .H => .H | .D => .D
  | .W s => .W (s.getD 6)
  | .M => .M
  | .Q s => .Q (s.getD 11)
  | .A s => .A (s.getD 11)
  | .min => .T
  | .Y s => .A (s.getD 11)

/-- A frequency string: optional decimal factor and denomination, e.g. `'D'`, `'8H'`, `'W-SAT'`. -/
structure Freq where
  factor : Option Nat
  denom : Denom
  pos : factor ≠ some 0
  deriving DecidableEq

/-- Multiplier of a frequency. -/
def Freq.mult (f : Freq) : Nat := f.factor.getD 1

/-- Base frequency. -/
def Freq.base (f : Freq) : Base := f.denom.base

/-- A frequency string without factor. -/
def Denom.freq (d : Denom) : Freq := ⟨none, d, by simp⟩

/-- `pd.Period`: a frequency and an ordinal of its base frequency. -/
structure Period where
  freq : Freq
  ord : Int
  deriving DecidableEq

/-- `Period.start_time`. -/
def Period.startTime (p : Period) : Time := p.freq.base.startOf p.ord

/-- `Period.end_time`: one nanosecond before the start of `p + p.freq`. -/
def Period.endTime (p : Period) : Time := p.freq.base.startOf (p.ord + p.freq.mult) - 1

/-- `pd.Period(ts, freq=freq)`. -/
def Period.ofTime (f : Freq) (t : Time) : Period := ⟨f, f.base.ordOf t⟩

/-- Ordinals of `pd.period_range(start=a, end=b, freq=f)`: from the ordinal of `a`, stepping by the
multiplier, up to the ordinal of `b`. -/
def periodRange (f : Freq) (a b : Time) : List Int :=
  let oa := f.base.ordOf a
  let ob := f.base.ordOf b
  if ob < oa then []
  else (List.range ((ob - oa) / f.mult + 1).toNat).map (fun (i : Nat) => oa + (f.mult : Int) * (i : Int))

/-- `get_freq_delta`: core.py 44-48. -/
def getFreqDelta (f : Freq) : Int :=
  let o := f.base.ordOf (date 2016 7 1)
  f.base.startOf (o + f.mult) - f.base.startOf o

/-- Number of the last month of the year: `get_rule_month` of pandas ('DEC' when there is no suffix). -/
def ruleMonth (s : Option (Fin 12)) : Nat := (s.getD 11 : Fin 12)

/-- `pandas.tseries.frequencies.is_subperiod(source, target)` (imported at utils.py 12-15) on frequency
strings.  The function compares strings, hence strings with a factor and the aliases 'min' and 'Y' are never recognised. -/
def isSubperiod (source target : Freq) : Bool :=
  if source.factor.isSome || target.factor.isSome then false
  else match target.denom with
    | .A s => match source.denom with
        | .Q s' => ruleMonth s' % 3 == ruleMonth s % 3
        | .D | .M | .H | .T | .S => true
        | _ => false
    | .Q _ => match source.denom with
        | .D | .M | .H | .T | .S => true
        | _ => false
    | .M => match source.denom with
        | .D | .H | .T | .S => true
        | _ => false
    | .W s => match source.denom with
        | .W s' => s == s'
        | .D | .H | .T | .S => true
        | _ => false
    | .D => match source.denom with
        | .D | .H | .T | .S => true
        | _ => false
    | .H => match source.denom with
        | .H | .T | .S => true
        | _ => false
    | .T => match source.denom with
        | .T | .S => true
        | _ => false
    | .S => match source.denom with
        | .S => true
        | _ => false
    | .min | .Y _ => false

/-- The string is recognised by the regular expression at core.py 125-126: a denomination in capital letters. -/
def Denom.capital : Denom → Bool
  | .min => false
  | _ => true

/-- `_check_groupby_freq`: core.py 88-156.  The recursive call at 146-147 has no factors and therefore
ends either with `is_subperiod` or with the `False` of line 138; 127 and 155-156 are about strings which are not recognised.
Simplification: invalid frequency strings (`False`, line 124) are excluded by the type `Freq`. -/
def checkGroupbyFreq (bu gb : Freq) : Bool :=
  if isSubperiod bu gb then true
  else if !(bu.denom.capital && gb.denom.capital) then false
  else if bu.mult == 1 && gb.mult == 1 then false
  else if bu.denom == gb.denom then gb.mult % bu.mult == 0
  else if bu.mult == 1 then isSubperiod bu.denom.freq gb.denom.freq
  else false

end TB
