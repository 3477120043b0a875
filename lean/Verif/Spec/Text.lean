import Verif.Model.Text
/-!
# Reading printed workshifts, intervals and timeboards

A reader written without regard to how the texts are made: it splits them at punctuation marks, reads decimal numbers, dates as
`year-month-day` and fiscal years by the month with which they end.
-/
namespace TB

/-- What is before and after the first occurrence of a character. -/
def splitFirst (c : Char) : Text → Option (Text × Text)
  | [] => none
  | x :: xs => if x = c then some ([], xs) else (splitFirst c xs).map (fun p => (x :: p.1, p.2))

/-- What is before and after the last occurrence of a character. -/
def splitLast (c : Char) (s : Text) : Option (Text × Text) :=
  (splitFirst c s.reverse).map (fun p => (p.2.reverse, p.1.reverse))

/-- The rest of a text after a given beginning. -/
def after : Text → Text → Option Text
  | [], s => some s
  | _ :: _, [] => none
  | p :: ps, x :: xs => if p = x then after ps xs else none

/-- The rest of a text before a given ending. -/
def before (e : Text) (s : Text) : Option Text := (after e.reverse s.reverse).map List.reverse

/-- The value of a digit. -/
def digitValue (c : Char) : Option Nat := (['0', '1', '2', '3', '4', '5', '6', '7', '8', '9'] : List Char).findIdx? (· == c)

/-- Read digits after a number. -/
def readDigits (n : Nat) : Text → Option Nat
  | [] => some n
  | c :: cs => (digitValue c).bind (fun d => readDigits (10 * n + d) cs)

/-- Read a natural number. -/
def readNat (s : Text) : Option Nat := if s = [] then none else readDigits 0 s

/-- Read an integer. -/
def readInt : Text → Option Int
  | '-' :: s => (readNat s).map (fun n => -(n : Int))
  | s => (readNat s).map (fun n => (n : Int))

/-- Read `year-month` as the number of the month, January 1970 being 0. -/
def readMonth (s : Text) : Option Int := do
  let (y, m) ← splitLast '-' s
  let y ← readInt y
  let m ← readNat m
  return 12 * (y - 1970) + (m - 1)

/-- Read `year-month-day` as a point in time. -/
def readDay (s : Text) : Option Time := do
  let (ym, d) ← splitLast '-' s
  let (y, m) ← splitLast '-' ym
  let y ← readInt y
  let m ← readNat m
  let d ← readNat d
  return date y m d

/-- Read `year-month-day hours:minutes[:seconds]`. -/
def readTime (s : Text) : Option Time := do
  let (d, t) ← splitFirst ' ' s
  let d ← readDay d
  let (h, t) ← splitFirst ':' t
  let h ← readNat h
  match splitFirst ':' t with
  | none =>
    let m ← readNat t
    return d + h * nsHour + m * nsMin
  | some (m, s) =>
    let m ← readNat m
    let s ← readNat s
    return d + h * nsHour + m * nsMin + s * nsSec

/-- The first month of the fiscal year which ends with the given month (0 = January). -/
def fiscalStart (e : Fin 12) (y : Int) : Int := 12 * (y - 1970) + e.val - 11

/-- The start time of the period of which the text is printed; a week is given by its first and its last day. -/
def Base.readPeriod (b : Base) (s : Text) : Option Time :=
  match b with
  | .A e => (readInt s).map (fun y => monthStart (fiscalStart e y) * nsDay)
  | .Q e => do
    let (y, q) ← splitFirst 'Q' s
    let y ← readInt y
    let q ← readNat q
    return monthStart (fiscalStart e y + 3 * (q - 1)) * nsDay
  | .M => (readMonth s).map (fun k => monthStart k * nsDay)
  | .W _ => do
    let (a, b) ← splitFirst '/' s
    let x ← readDay a
    let y ← readDay b
    if y = x + 6 * nsDay then some x else none
  | .D => readDay s
  | _ => readTime s

/-- All denominations, with the names of weekdays and months as they are in English. -/
def denominations : List (String × Denom) :=
  [("S", .S), ("T", .T), ("H", .H), ("D", .D), ("W", .W none), ("M", .M), ("Q", .Q none), ("A", .A none),
   ("W-MON", .W (some 0)), ("W-TUE", .W (some 1)), ("W-WED", .W (some 2)), ("W-THU", .W (some 3)), ("W-FRI", .W (some 4)),
   ("W-SAT", .W (some 5)), ("W-SUN", .W (some 6)),
   ("Q-JAN", .Q (some 0)), ("Q-FEB", .Q (some 1)), ("Q-MAR", .Q (some 2)), ("Q-APR", .Q (some 3)), ("Q-MAY", .Q (some 4)),
   ("Q-JUN", .Q (some 5)), ("Q-JUL", .Q (some 6)), ("Q-AUG", .Q (some 7)), ("Q-SEP", .Q (some 8)), ("Q-OCT", .Q (some 9)),
   ("Q-NOV", .Q (some 10)), ("Q-DEC", .Q (some 11)),
   ("A-JAN", .A (some 0)), ("A-FEB", .A (some 1)), ("A-MAR", .A (some 2)), ("A-APR", .A (some 3)), ("A-MAY", .A (some 4)),
   ("A-JUN", .A (some 5)), ("A-JUL", .A (some 6)), ("A-AUG", .A (some 7)), ("A-SEP", .A (some 8)), ("A-OCT", .A (some 9)),
   ("A-NOV", .A (some 10)), ("A-DEC", .A (some 11)), ("min", .min), ("Y", .Y none),
   ("Y-JAN", .Y (some 0)), ("Y-FEB", .Y (some 1)), ("Y-MAR", .Y (some 2)), ("Y-APR", .Y (some 3)), ("Y-MAY", .Y (some 4)),
   ("Y-JUN", .Y (some 5)), ("Y-JUL", .Y (some 6)), ("Y-AUG", .Y (some 7)), ("Y-SEP", .Y (some 8)), ("Y-OCT", .Y (some 9)),
   ("Y-NOV", .Y (some 10)), ("Y-DEC", .Y (some 11))]

/-- Read a denomination. -/
def readDenom (s : Text) : Option Denom := (denominations.find? (fun p => p.1.toList == s)).map Prod.snd

/-- Read a frequency: digits and a denomination. -/
def readFreq (s : Text) : Option (Option Nat × Denom) := do
  let ds := s.takeWhile (fun c => (digitValue c).isSome)
  let d ← readDenom (s.dropWhile (fun c => (digitValue c).isSome))
  return (if ds = [] then none else readNat ds, d)

/-- What a printed workshift tells: how many base units it takes, of which frequency, and when it starts. -/
structure Shown where
  duration : Int
  factor : Option Nat
  denom : Denom
  start : Time
  deriving DecidableEq

/-- Read `[nx]'freq' at period`. -/
def readShown (s : Text) : Option Shown := do
  let (d, s) ← splitFirst '\'' s
  let (f, s) ← splitFirst '\'' s
  let p ← after " at ".toList s
  let d ← if d = [] then some 1 else (before ['x'] d).bind readInt
  let (factor, denom) ← readFreq f
  let t ← denom.base.readPeriod p
  return ⟨d, factor, denom, t⟩

/-- Read `[, name]`. -/
def readLabel (s : Text) : Option (Option Text) :=
  if s = [] then some none else (after ", ".toList s).map some

/-- Read `Workshift(number[, name]) of ...`: the position, the name of the schedule if it is given, and what is shown of the
workshift. -/
def readWorkshift (s : Text) : Option (Int × Option Text × Shown) := do
  let s ← after "Workshift(".toList s
  let (head, s) ← splitLast ')' s
  let s ← after " of ".toList s
  let x ← readShown s
  match splitFirst ',' head with
  | none =>
    let k ← readInt head
    return (k, none, x)
  | some (k, name) =>
    let k ← readInt k
    let name ← after [' '] name
    return (k, some name, x)

/-- Read what follows the word `Interval` and, for void, a space. -/
def readIntervalRest (void : Bool) (s : Text) : Option (Int × Int × Option Text × Option (Shown × Shown × Int)) := do
  let s ← after "((".toList s
  let (head, s) ← splitLast ')' s
  let (a, head) ← splitFirst ',' head
  let (b, name) ← splitFirst ')' head
  let a ← readInt a
  let b ← (after [' '] b).bind readInt
  let name ← readLabel name
  let s ← after ": ".toList s
  if void then
    if s = "void [0]".toList then some (a, b, name, none) else none
  else
    let (s, n) ← splitLast '[' s
    let n ← (before [']'] n).bind readInt
    let (x, y) ← splitFirst '>' s
    let x ← (before " -".toList x).bind readShown
    let y ← (after [' '] y).bind (before [' '])
    let y ← readShown y
    return (a, b, name, some (x, y, n))

/-- Read `Interval((first, last)[, name]): workshift -> workshift [length]` or `Interval ((first, last)[, name]): void [0]`: the
positions, the name of the schedule if it is given, the first and last workshifts and the length, none of these for void. -/
def readInterval (s : Text) : Option (Int × Int × Option Text × Option (Shown × Shown × Int)) :=
  match after "Interval".toList s with
  | none => none
  | some (' ' :: s) => readIntervalRest true s
  | some s => readIntervalRest false s

/-- Read `Timeboard of 'freq': period -> period`: the frequency and the starts of the first and the last base units. -/
def readTimeboard (s : Text) : Option ((Option Nat × Denom) × Time × Time) := do
  let s ← after "Timeboard of '".toList s
  let (f, s) ← splitFirst '\'' s
  let f ← readFreq f
  let s ← after ": ".toList s
  let (x, y) ← splitFirst '>' s
  let x ← (before " -".toList x).bind f.2.base.readPeriod
  let y ← (after [' '] y).bind f.2.base.readPeriod
  return (f, x, y)

end TB
