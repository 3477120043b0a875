import Verif.Model.Interval
/-!
# Floating point

`Model/Interval.lean` computes with exact rationals.  In Python the ratios and their sums are floats.  This module models the same
functions with the rounding made explicit: `fl x` is the float which stands for the exact result `x` of an operation.
`float64` is the rounding of IEEE 754 binary64 to the nearest float, ties to even.  Simplification: no limits of the
exponent, i.e. no overflow to infinity and no underflow to subnormal numbers.
-/
namespace TB
variable {L : Type}

/-- The nearest integer, of two equally near ones the even one. -/
def nearestInt (x : Rat) : Int :=
  let r := x - (x.floor : Rat)
  if r < 1 / 2 then x.floor
  else if r > 1 / 2 then x.floor + 1
  else if x.floor % 2 = 0 then x.floor else x.floor + 1

/-- The exponent `k` with `2 ** k ≤ x < 2 ** (k + 1)`, for positive `x`. -/
def exponent (x : Rat) : Int :=
  let k : Int := (x.num.natAbs.log2 : Int) - (x.den.log2 : Int)
  if (2 : Rat) ^ k ≤ x then k else k - 1

/-- The float nearest to a positive number: a significand of 53 binary digits. -/
def float64Pos (x : Rat) : Rat :=
  let e := exponent x - 52
  (nearestInt (x / 2 ^ e) : Rat) * 2 ^ e

/-- The float nearest to a number. -/
def float64 (x : Rat) : Rat :=
  if x = 0 then 0 else if x > 0 then float64Pos x else -float64Pos (-x)

/-- `x / y` of two integers, as a float. -/
def floatDiv (fl : Rat → Rat) (x y : Int) : Except Err Rat := if y = 0 then .error .zeroDivision else .ok (fl ((x : Rat) / (y : Rat)))

/-- `Interval.what_portion_of`: interval.py 810-818; void: 1078-1079. -/
def Interval.floatPortionOf (fl : Rat → Rat) (v : Interval L) (tb : Timeboard L) (other : Interval L) (duty : Duty := .on)
    (schedule : Option (Schedule L) := none) : Except Err Rat :=
  if v.isVoid then .ok 0
  else do
    let s := schedule.getD v.schedule
    let x ← v.overlap tb other (some s)
    let c ← x.count tb duty
    if c = 0 then return 0
    else
      let d ← other.count tb duty (some s)
      floatDiv fl c d

/-- The part of `count_periods` after the first and the last workshift with the duty are known: interval.py 665-721.  The sum
starts with 0.0 and is rounded after each addition. -/
def Interval.floatPeriodsBody (fl : Rat → Rat) (v : Interval L) (tb : Timeboard L) (freq : Freq) (duty : Duty) (s : Schedule L)
    (index : Frame) (startTs endTs : Time) : Except Err Rat := do
  let entries ← periodLoop tb freq duty s index.ords
  let i0 ← index.getLoc startTs
  let i1 ← index.getLoc endTs
  if endTs ≤ index.unitEnd i0 then
    let e0 ← periodEntry entries i0
    let c ← v.count tb duty (some s)
    floatDiv fl c e0.2
  else
    let e0 ← periodEntry entries i0
    let t0 ← timeOrTypeError (e0.1.endTime tb)
    let v0 ← tb.getInterval (some (.pair (some startTs) (some t0))) none none false "11" (some s)
    let c0 ← v0.count tb duty (some s)
    let q0 ← floatDiv fl c0 e0.2
    let result := fl (0 + q0)
    let e1 ← periodEntry entries i1
    let t1 ← timeOrTypeError (e1.1.startTime tb)
    let v1 ← tb.getInterval (some (.pair (some t1) (some endTs))) none none false "11" (some s)
    let c1 ← v1.count tb duty (some s)
    let q1 ← floatDiv fl c1 e1.2
    let result := fl (result + q1)
    if i1 - i0 - 1 > 0 then
      let full ← countPositive ((entries.take i1.toNat).drop (i0 + 1).toNat)
      return fl (result + (full : Rat))
    else return result

/-- `Interval.count_periods`: interval.py 554-721; void: 1075-1076. -/
def Interval.floatPeriods (fl : Rat → Rat) (v : Interval L) (tb : Timeboard L) (freq : Freq) (duty : Duty := .on)
    (schedule : Option (Schedule L) := none) : Except Err Rat :=
  if v.isVoid then .ok 0
  else if !supportedPeriod freq then .error .unacceptablePeriod
  else do
    let a ← timeOrTypeError (v.startTime tb)
    let b ← timeOrTypeError (v.endTime tb)
    let index ← Frame.new freq a b
    let s := schedule.getD v.schedule
    match v.first tb duty (some s), v.last tb duty (some s) with
    | .error .outOfBounds, _ => return 0
    | .error e, _ => throw e
    | .ok _, .error .outOfBounds => return 0
    | .ok _, .error e => throw e
    | .ok w0, .ok w1 =>
      let startTs ← w0.toTimestamp tb
      let endTs ← w1.toTimestamp tb
      v.floatPeriodsBody fl tb freq duty s index startTs endTs

/-- The numbers are added up to `x`, in some order and grouping, with rounding after each addition (the order in which
`Series.sum()` adds is not specified; adding to an initial zero changes no float and is left out). -/
inductive AddedUp (fl : Rat → Rat) : List Rat → Rat → Prop
  | none : AddedUp fl [] 0
  | one (q : Rat) : AddedUp fl [q] q
  | add {xs ys zs : List Rat} {x y : Rat} : xs ≠ [] → ys ≠ [] → AddedUp fl xs x → AddedUp fl ys y → zs.Perm (xs ++ ys) →
      AddedUp fl zs (fl (x + y))

/-- `x` is a possible result of `Interval.worktime` with `worktime_source = 'labels'`: interval.py 830-880, 1001-1007; void: 1084-1085.  `num` tells which
number (float) a label is. -/
def Interval.FloatWorktime (fl : Rat → Rat) (v : Interval L) (tb : Timeboard L) (num : L → Option Rat) (duty : Duty)
    (schedule : Option (Schedule L)) (x : Rat) : Prop :=
  if v.isVoid then x = 0
  else match v.dutyIdx tb duty (schedule.getD v.schedule) with
    | .error _ => False
    | .ok (_, none) => x = 0
    | .ok (idx, some (a, b)) => match (slice idx a b).mapM (fun i => tb.timeline.label i) with
      | .error _ => False
      | .ok ls => ∃ qs, ls.mapM num = some qs ∧ AddedUp fl qs x

end TB
