import Verif.Model.Text
/-!
# Frequencies as the code sees them: strings

`_check_groupby_freq` (core.py 88-156) works on the frequency strings themselves: it compares them with names, takes them apart with a
regular expression and calls itself with the parts.  `checkGroupbyFreq` of `Model/Freq.lean` works on frequencies already read.
-/
namespace TB

/-- `\d` of a regular expression.  Simplification: ASCII. -/
def isDigitChar (c : Char) : Bool := decide (48 ≤ c.toNat) && decide (c.toNat ≤ 57)

/-- `[A-Z-]` of a regular expression. -/
def isFreqLetter (c : Char) : Bool := decide (65 ≤ c.toNat) && decide (c.toNat ≤ 90) || c == '-'

/-- `re.match(r"(^\d*)([A-Z-]+)", s)` and its groups: core.py 125-126. -/
def matchFreq (s : Text) : Option (Text × Text) :=
  match (s.dropWhile isDigitChar).takeWhile isFreqLetter with
  | [] => none
  | u :: us => some (s.takeWhile isDigitChar, u :: us)

/-- `int(s)` of a string of digits. -/
def intOfDigits (s : Text) : Nat := s.foldl (fun n c => 10 * n + (c.toNat - 48)) 0

/-- `_is_annual`, `_is_quarterly`, `_is_monthly`, `_is_weekly` of pandas. -/
def isAnnualText (s : Text) : Bool := s == "A".toList || "A-".toList.isPrefixOf s
def isQuarterlyText (s : Text) : Bool := s == "Q".toList || "Q-".toList.isPrefixOf s || "BQ".toList.isPrefixOf s
def isMonthlyText (s : Text) : Bool := s == "M".toList || s == "BM".toList
def isWeeklyText (s : Text) : Bool := s == "W".toList || "W-".toList.isPrefixOf s

/-- `get_rule_month` of pandas: what follows the first hyphen (up to the next one), 'DEC' if there is none. -/
def ruleMonthText (s : Text) : Text :=
  match s.dropWhile (· != '-') with
  | [] => "DEC".toList
  | _ :: rest => rest.takeWhile (· != '-')

/-- `MONTH_NUMBERS` of pandas. -/
def monthNumber (s : Text) : Option Nat :=
  (["JAN", "FEB", "MAR", "APR", "MAY", "JUN", "JUL", "AUG", "SEP", "OCT", "NOV", "DEC"] : List String).findIdx? (fun m => m.toList == s)

/-- `s in {...}` for a set of one-letter names. -/
def oneOf (names : String) (s : Text) : Bool := names.toList.any (fun c => s == [c])

/-- `pandas.tseries.frequencies.is_subperiod(source, target)` (imported at utils.py 12-15); the `None` of an unknown target is `false`
(core.py 112-116).  An unknown month is a KeyError. -/
def isSubperiodText (source target : Text) : Except Err Bool :=
  let source := source.map Char.toUpper
  let target := target.map Char.toUpper
  if isAnnualText target then
    if isQuarterlyText source then
      match monthNumber (ruleMonthText source), monthNumber (ruleMonthText target) with
      | some a, some b => .ok (a % 3 == b % 3)
      | _, _ => .error .keyError
    else .ok (oneOf "DCBMHTSLUN" source)
  else if isQuarterlyText target then .ok (oneOf "DCBMHTSLUN" source)
  else if isMonthlyText target then .ok (oneOf "DCBHTSLUN" source)
  else if isWeeklyText target then .ok (source == target || oneOf "DCBHTSLUN" source)
  else if target == ['B'] then .ok (oneOf "BHTSLUN" source)
  else if target == ['C'] then .ok (oneOf "CHTSLUN" source)
  else if target == ['D'] then .ok (oneOf "DHTSLUN" source)
  else if target == ['H'] then .ok (oneOf "HTSLUN" source)
  else if target == ['T'] then .ok (oneOf "TSLUN" source)
  else if target == ['S'] then .ok (oneOf "SLUN" source)
  else if target == ['L'] then .ok (oneOf "LUN" source)
  else if target == ['U'] then .ok (oneOf "UN" source)
  else if target == ['N'] then .ok (oneOf "N" source)
  else .ok false

/-- `_check_groupby_freq(base_unit_freq, group_by_freq)`: core.py 88-156.  `valid` tells for which strings `get_freq_delta` (core.py
121-124) does not raise ValueError.  The number bounds the depth of recursion (line 146), beyond it is a RuntimeError (RecursionError). -/
def checkGroupbyText (valid : Text → Bool) : Nat → Text → Text → Except Err Bool
  | 0, _, _ => .error .runtimeError
  | k + 1, bu, gb => match isSubperiodText bu gb with
    | .error e => .error e
    | .ok true => .ok true
    | .ok false =>
      if valid gb = false then .ok false
      else match matchFreq bu, matchFreq gb with
        | some (bn, bd), some (gn, gd) =>
          let bf := if bn == [] then 1 else intOfDigits bn
          let gf := if gn == [] then 1 else intOfDigits gn
          if bf == 1 && gf == 1 then .ok false
          else if bd == gd then (if bf == 0 then .error .zeroDivision else .ok (gf % bf == 0))
          else if bf == 1 then checkGroupbyText valid k bd gd
          else .ok false
        | _, _ => .ok false

end TB
