import Verif.Model.Interval
/-!
# Printed forms of workshifts, intervals and timeboards

Models `compact_str` and `__repr__` of `Workshift`, `Interval`, `_VoidInterval` and `compact_str` of `Timeboard`, with `str(n)` of
integers and `str(period)` of pandas.  Texts are lists of characters.
-/
namespace TB

/-- A text. -/
abbrev Text := List Char

/-- A decimal digit. -/
def digit (n : Nat) : Char := ['0', '1', '2', '3', '4', '5', '6', '7', '8', '9'].getD n '?'

/-- `str(n)` of a non-negative integer. -/
def natText (n : Nat) : Text :=
  if n < 10 then [digit n] else natText (n / 10) ++ [digit (n % 10)]

/-- `str(n)` of an integer. -/
def intText (i : Int) : Text := if i < 0 then '-' :: natText i.natAbs else natText i.natAbs

/-- Two digits: `%02d`. -/
def twoDigits (n : Nat) : Text := [digit (n / 10 % 10), digit (n % 10)]

/-- `'%Y-%m'` of a month.  Simplification: the years of pandas have four digits, other years are written without padding. -/
def monthText (k : Int) : Text := intText (1970 + k / 12) ++ '-' :: twoDigits (k % 12 + 1).toNat

/-- `'%Y-%m-%d'` of a day. -/
def dayText (d : Int) : Text := monthText (monthOf d) ++ '-' :: twoDigits (dayOfMonth d).toNat

/-- The fiscal year, ending with the given month (0 = January), and the number (from 1) of the given month in it: `DtoQ_yq` and
`get_anchor_month` of pandas. -/
def fiscal (e : Fin 12) (k : Int) : Int × Int :=
  let y := 1970 + k / 12
  let m := k % 12 + 1
  if e.val = 11 then (y, m)
  else
    let m' := m - ((e.val : Int) + 1)
    if m' ≤ 0 then (y, m' + 12) else (y + 1, m')

/-- `str(period)` of pandas for the base period with the given ordinal (the factor of the frequency is of no effect). -/
def Base.periodText (b : Base) (o : Int) : Text :=
  match b with
  | .A e => intText (fiscal e (monthOf (b.startOf o / nsDay))).1
  | .Q e =>
    let f := fiscal e (monthOf (b.startOf o / nsDay))
    intText f.1 ++ 'Q' :: intText ((f.2 - 1) / 3 + 1)
  | .M => monthText o
  | .W _ => dayText (b.startOf o / nsDay) ++ '/' :: dayText (b.startOf (o + 1) / nsDay - 1)
  | .D => dayText o
  | .H => dayText (o / 24) ++ ' ' :: twoDigits (o % 24).toNat ++ [':', '0', '0']
  | .T => dayText (o / 1440) ++ ' ' :: twoDigits (o % 1440 / 60).toNat ++ ':' :: twoDigits (o % 60).toNat
  | .S => dayText (o / 86400) ++ ' ' :: twoDigits (o % 86400 / 3600).toNat ++ ':' :: twoDigits (o % 3600 / 60).toNat ++
      ':' :: twoDigits (o % 60).toNat

/-- Names of weekdays in frequency strings. -/
def weekdayName (w : Fin 7) : Text :=
  (["MON", "TUE", "WED", "THU", "FRI", "SAT", "SUN"].getD w.val "").toList

/-- Names of months in frequency strings. -/
def monthName (m : Fin 12) : Text :=
  (["JAN", "FEB", "MAR", "APR", "MAY", "JUN", "JUL", "AUG", "SEP", "OCT", "NOV", "DEC"].getD m.val "").toList

/-- A denomination as it is written. -/
def Denom.text : Denom → Text
  | .S => ['S'] | .T => ['T'] | .H => ['H'] | .D => ['D'] | .M => ['M']
  | .W none => ['W'] | .W (some w) => 'W' :: '-' :: weekdayName w
  | .Q none => ['Q'] | .Q (some m) => 'Q' :: '-' :: monthName m
  | .A none => ['A'] | .A (some m) => 'A' :: '-' :: monthName m
  | .min => ['m', 'i', 'n']
  | .Y none => ['Y'] | .Y (some m) => 'Y' :: '-' :: monthName m

/-- A frequency string. -/
def Freq.text (f : Freq) : Text := (match f.factor with | none => [] | some n => natText n) ++ f.denom.text

variable {L : Type}

/-- `Workshift.compact_str`: workshift.py 105-113. -/
def Workshift.compactStr (w : Workshift L) (tb : Timeboard L) : Except Err Text := do
  let d ← w.duration tb
  let t ← w.startTime tb
  let durationStr := if d ≠ 1 then intText d ++ ['x'] else []
  let freq := tb.timeline.frame.freq
  return durationStr ++ '\'' :: freq.text ++ "' at ".toList ++ freq.base.periodText (Period.ofTime freq t).ord

/-- `_repr_schedule_label`: workshift.py 92-98, interval.py 170-176. -/
def scheduleLabel (tb : Timeboard L) (s : Schedule L) : Text :=
  if s.name = tb.defaultSchedule.name then [] else ", ".toList ++ s.name.toList

/-- `Workshift.__repr__`: workshift.py 100-103. -/
def Workshift.repr (w : Workshift L) (tb : Timeboard L) : Except Err Text := do
  let c ← w.compactStr tb
  return "Workshift(".toList ++ intText w.loc ++ scheduleLabel tb w.schedule ++ ") of ".toList ++ c

/-- `Interval.compact_str` (and `__repr__`): interval.py 178-189; void: 1039-1045. -/
def Interval.repr (v : Interval L) (tb : Timeboard L) : Except Err Text := do
  let loc := '(' :: intText v.lo ++ ", ".toList ++ intText v.hi ++ [')']
  if v.isVoid then return "Interval (".toList ++ loc ++ scheduleLabel tb v.schedule ++ "): void [0]".toList
  else
    let first ← Workshift.new tb v.lo
    let c1 ← first.compactStr tb
    let last ← Workshift.new tb v.hi
    let c2 ← last.compactStr tb
    return "Interval(".toList ++ loc ++ scheduleLabel tb v.schedule ++ "): ".toList ++ c1 ++ " -> ".toList ++ c2 ++
      " [".toList ++ intText v.length ++ [']']

/-- `Timeboard.compact_str`: timeboard.py 231-236. -/
def Timeboard.compactStr (tb : Timeboard L) : Text :=
  let f := tb.timeline.frame
  "Timeboard of '".toList ++ f.freq.text ++ "': ".toList ++ f.freq.base.periodText (f.ord 0) ++ " -> ".toList ++
    f.freq.base.periodText (f.ord (f.n - 1))

end TB
