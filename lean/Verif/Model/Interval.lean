import Verif.Model.Workshift
/-!
# Interval methods

Models `timeboard/interval.py` 194-1085 (`Interval` and `_VoidInterval`).  The methods of `_VoidInterval` are
the branches `isVoid = true`.
-/
namespace TB

variable {L : Type}

/-- `Interval.start_time` (interval.py 194-197); `none` is NaT of a void interval (1050-1052). -/
def Interval.startTime (v : Interval L) (tb : Timeboard L) : Except Err (Option Time) :=
  if v.isVoid then .ok none else (tb.timeline.wsStart v.lo).map some

/-- `Interval.end_time` (interval.py 199-202, 1054-1056). -/
def Interval.endTime (v : Interval L) (tb : Timeboard L) : Except Err (Option Time) :=
  if v.isVoid then .ok none else (tb.timeline.wsEnd v.hi).map some

/-- `Interval.to_dataframe`: interval.py 212-233. -/
def Interval.toDataframe (v : Interval L) (tb : Timeboard L) : Except Err (List (TbRow L)) :=
  tb.toDataframe (some v.lo) (some v.hi)

/-- The first loop of `_find_my_bounds_in_idx`: interval.py 237-240: number of leading elements below `lo`. -/
def scanUp (lo : Int) : List Int → Nat → Nat
  | [], k => k
  | x :: xs, k => if x < lo then scanUp lo xs (k + 1) else k

/-- The second loop: interval.py 243-245; `k` is `right_bound + 1`. -/
def scanDown (idx : List Int) (hi : Int) (left : Nat) : Nat → Int
  | 0 => -1
  | k + 1 =>
    if k ≥ left then match idx[k]? with
      | some x => if x > hi then scanDown idx hi left k else (k : Int)
      | none => (k : Int)
    else (k : Int)

/-- `Interval._find_my_bounds_in_idx`: interval.py 235-248. -/
def Interval.findBounds (v : Interval L) (idx : List Int) : Option (Int × Int) :=
  let left := scanUp v.lo idx 0
  if left = idx.length then none
  else
    let right := scanDown idx v.hi left idx.length
    if right < left then none else some ((left : Int), right)

/-- `Interval._get_duty_idx`: interval.py 250-265. -/
def Interval.dutyIdx (v : Interval L) (tb : Timeboard L) (duty : Duty) (s : Schedule L) :
    Except Err (List Int × Option (Int × Int)) :=
  match duty with
  | .on => .ok (s.onIdx, v.findBounds s.onIdx)
  | .off => .ok (s.offIdx, v.findBounds s.offIdx)
  | .any => .ok (tb.timeline.index, some (v.lo, v.hi))
  | _ => .error .valueError

/-- `idx[a:b+1]` for non-negative `a`, `b`: interval.py 313, 879, 933. -/
def slice (idx : List Int) (a b : Int) : List Int := (idx.take (b + 1).toNat).drop a.toNat

/-- `list(interval.workshifts(duty, schedule))`: interval.py 267-314; void: 1058-1060. -/
def Interval.workshifts (v : Interval L) (tb : Timeboard L) (duty : Duty := .on)
    (schedule : Option (Schedule L) := none) : Except Err (List (Workshift L)) :=
  if v.isVoid then .ok []
  else
    let s := schedule.getD v.schedule
    match v.dutyIdx tb duty s with
    | .error e => .error e
    | .ok (_, none) => .ok []
    | .ok (idx, some (a, b)) => (slice idx a b).mapM (fun i => Workshift.new tb i (some s))

/-- `list(interval)`: interval.py 316-324. -/
def Interval.iter (v : Interval L) (tb : Timeboard L) : Except Err (List (Workshift L)) := v.workshifts tb .any

/-- `len(interval)`: interval.py 204-206, 326-327. -/
def Interval.len (v : Interval L) : Int := v.length

/-- `Interval.nth`: interval.py 329-392; void: 1062-1065. -/
def Interval.nth (v : Interval L) (tb : Timeboard L) (n : Int) (duty : Duty := .on)
    (schedule : Option (Schedule L) := none) : Except Err (Workshift L) :=
  if v.isVoid then .error .outOfBounds
  else
    let s := schedule.getD v.schedule
    match v.dutyIdx tb duty s with
    | .error e => .error e
    | .ok (_, none) => .error .outOfBounds
    | .ok (idx, some (a, b)) =>
      let i := if n ≥ 0 then a + n else b + n + 1
      if i < a ∨ i > b then .error .outOfBounds
      else workshiftAt tb idx i s

/-- `Interval.first`: interval.py 394-415. -/
def Interval.first (v : Interval L) (tb : Timeboard L) (duty : Duty := .on)
    (schedule : Option (Schedule L) := none) : Except Err (Workshift L) := v.nth tb 0 duty schedule

/-- `Interval.last`: interval.py 417-438. -/
def Interval.last (v : Interval L) (tb : Timeboard L) (duty : Duty := .on)
    (schedule : Option (Schedule L) := none) : Except Err (Workshift L) := v.nth tb (-1) duty schedule

/-- `Interval.count`: interval.py 440-474; void: 1067-1068. -/
def Interval.count (v : Interval L) (tb : Timeboard L) (duty : Duty := .on)
    (schedule : Option (Schedule L) := none) : Except Err Int :=
  if v.isVoid then .ok 0
  else match v.dutyIdx tb duty (schedule.getD v.schedule) with
    | .error e => .error e
    | .ok (_, none) => .ok 0
    | .ok (_, some (a, b)) => .ok (b - a + 1)

/-- `Interval.overlap`: interval.py 476-546; void: 1070-1073. -/
def Interval.overlap (v : Interval L) (tb : Timeboard L) (other : Interval L)
    (schedule : Option (Schedule L) := none) : Except Err (Interval L) :=
  let s := schedule.getD v.schedule
  if v.isVoid then Interval.newVoid tb (v.lo, v.hi) (some s)
  else
    let bounds := (max v.lo other.lo, min v.hi other.hi)
    match Interval.new tb bounds (some s) with
    | .error .voidInterval => Interval.newVoid tb bounds (some s)
    | r => r

/-- True division of two integers: `x / y` (`from __future__ import division`).
Simplification: exact rationals instead of floats. -/
def pyDiv (x y : Int) : Except Err Rat := if y = 0 then .error .zeroDivision else .ok ((x : Rat) / (y : Rat))

/-- `Interval.what_portion_of`: interval.py 723-818; void: 1078-1079. -/
def Interval.whatPortionOf (v : Interval L) (tb : Timeboard L) (other : Interval L) (duty : Duty := .on)
    (schedule : Option (Schedule L) := none) : Except Err Rat :=
  if v.isVoid then .ok 0
  else do
    let s := schedule.getD v.schedule
    let x ← v.overlap tb other (some s)
    let c ← x.count tb duty
    if c = 0 then return 0
    else
      let d ← other.count tb duty (some s)
      pyDiv c d

/-- `x * y`: interval.py 548-551. -/
def Interval.mul (v : Interval L) (tb : Timeboard L) (other : Interval L) : Except Err (Interval L) := v.overlap tb other

/-- `x / y`: interval.py 820-828. -/
def Interval.div (v : Interval L) (tb : Timeboard L) (other : Interval L) : Except Err Rat := v.whatPortionOf tb other

/-- Sum of the labels (`Series.sum()` and the check `result + 0` at interval.py 1002-1007); TypeError when some
label is not a number.  Simplification: None and NaN, which `Series.sum()` leaves out, are treated in `Model/LabelSums.lean`;
here they are numbers (0) or not according to `num`. -/
def sumNums (num : L → Option Rat) : List L → Except Err Rat
  | [] => .ok 0
  | l :: ls => match num l, sumNums num ls with
    | some q, .ok r => .ok (q + r)
    | some _, .error e => .error e
    | none, _ => .error .typeError

/-- `Interval._sum_labels` followed by the check of `worktime`: interval.py 830-880, 1001-1007. -/
def Interval.sumLabels (v : Interval L) (tb : Timeboard L) (num : L → Option Rat) (duty : Duty)
    (schedule : Option (Schedule L)) : Except Err Rat :=
  match v.dutyIdx tb duty (schedule.getD v.schedule) with
  | .error e => .error e
  | .ok (_, none) => .ok 0
  | .ok (idx, some (a, b)) => match (slice idx a b).mapM (fun i => tb.timeline.label i) with
    | .error e => .error e
    | .ok ls => sumNums num ls

/-- `Interval.total_duration`: interval.py 882-933; void: 1081-1082. -/
def Interval.totalDuration (v : Interval L) (tb : Timeboard L) (duty : Duty := .on)
    (schedule : Option (Schedule L) := none) : Except Err Int :=
  if v.isVoid then .ok 0
  else match v.dutyIdx tb duty (schedule.getD v.schedule) with
    | .error e => .error e
    | .ok (_, none) => .ok 0
    | .ok (idx, some (a, b)) => match tb.timeline.durationsFor (slice idx a b) with
      | .error e => .error e
      | .ok ds => .ok ds.sum

/-- `Interval.worktime`: interval.py 935-1013; void: 1084-1085. -/
def Interval.worktime (v : Interval L) (tb : Timeboard L) (num : L → Option Rat) (duty : Duty := .on)
    (schedule : Option (Schedule L) := none) : Except Err Rat :=
  if v.isVoid then .ok 0
  else if tb.worktimeSource = "labels" then v.sumLabels tb num duty schedule
  else if tb.worktimeSource = "duration" then (v.totalDuration tb duty schedule).map (fun d : Int => (d : Rat))
  else .error .runtimeError

/-- `SUPPORTED_PERIODS`: interval.py 648-652. -/
def supportedPeriod (f : Freq) : Bool :=
  f.factor.isNone && match f.denom with
    | .S | .T | .min | .H | .D | .W none | .M | .Q none | .A none | .Y none => true
    | _ => false

/-- The loop over periods: interval.py 665-684: intervals of the periods and their counts; `none` where the
period is completely outside. -/
def periodLoop (tb : Timeboard L) (freq : Freq) (duty : Duty) (s : Schedule L) :
    List Int → Except Err (List (Option (Interval L × Int)))
  | [] => .ok []
  | o :: os =>
    match tb.getInterval (some (.period ⟨freq, o⟩)) none none false "11" (some s) with
    | .error .outOfBounds => (periodLoop tb freq duty s os).map (fun r => none :: r)
    | .error .voidInterval => .error .unacceptablePeriod
    | .error e => .error e
    | .ok ivl => match ivl.count tb duty (some s) with
      | .error e => .error e
      | .ok c => (periodLoop tb freq duty s os).map (fun r => some (ivl, c) :: r)

/-- `x > 0` for the elements of `period_duty_count`: interval.py 716-719; `None > 0` is TypeError. -/
def countPositive : List (Option (Interval L × Int)) → Except Err Int
  | [] => .ok 0
  | none :: _ => .error .typeError
  | some (_, c) :: rest => (countPositive rest).map (fun r => (if c > 0 then 1 else 0) + r)

/-- `period_intervals[i]`, `period_duty_count[i]` at interval.py 687-692; later use of a None raises
(AttributeError or TypeError, here TypeError). -/
def periodEntry (es : List (Option (Interval L × Int))) (i : Int) : Except Err (Interval L × Int) :=
  match pyGet? es i with
  | none => .error .indexError
  | some none => .error .typeError
  | some (some e) => .ok e

/-- `end_time` / `start_time` of a regular interval, as a point in time. -/
def timeOrTypeError (x : Except Err (Option Time)) : Except Err Time :=
  match x with
  | .error e => .error e
  | .ok none => .error .typeError
  | .ok (some t) => .ok t

/-- The part of `count_periods` after the positions of the first and the last workshift with the duty are
known: interval.py 665-721. -/
def Interval.countPeriodsBody (v : Interval L) (tb : Timeboard L) (freq : Freq) (duty : Duty) (s : Schedule L)
    (index : Frame) (startTs endTs : Time) : Except Err Rat := do
  let entries ← periodLoop tb freq duty s index.ords
  let i0 ← index.getLoc startTs
  let i1 ← index.getLoc endTs
  if endTs ≤ index.unitEnd i0 then
    let e0 ← periodEntry entries i0
    let c ← v.count tb duty (some s)
    pyDiv c e0.2
  else
    let e0 ← periodEntry entries i0
    let t0 ← timeOrTypeError (e0.1.endTime tb)
    let v0 ← tb.getInterval (some (.pair (some startTs) (some t0))) none none false "11" (some s)
    let c0 ← v0.count tb duty (some s)
    let q0 ← pyDiv c0 e0.2
    let e1 ← periodEntry entries i1
    let t1 ← timeOrTypeError (e1.1.startTime tb)
    let v1 ← tb.getInterval (some (.pair (some t1) (some endTs))) none none false "11" (some s)
    let c1 ← v1.count tb duty (some s)
    let q1 ← pyDiv c1 e1.2
    if i1 - i0 - 1 > 0 then
      let full ← countPositive ((entries.take i1.toNat).drop (i0 + 1).toNat)
      return q0 + q1 + (full : Rat)
    else return q0 + q1

/-- `Interval.count_periods`: interval.py 554-721; void: 1075-1076. -/
def Interval.countPeriods (v : Interval L) (tb : Timeboard L) (freq : Freq) (duty : Duty := .on)
    (schedule : Option (Schedule L) := none) : Except Err Rat :=
  if v.isVoid then .ok 0
  else if !supportedPeriod freq then .error .unacceptablePeriod
  else do
    let a ← timeOrTypeError (v.startTime tb)
    let b ← timeOrTypeError (v.endTime tb)
    let index ← Frame.new freq a b
    let s := schedule.getD v.schedule
    match v.first tb duty (some s), v.last tb duty (some s) with
    | .error .outOfBounds, _ => return 0
    | .error e, _ => throw e
    | .ok _, .error .outOfBounds => return 0
    | .ok _, .error e => throw e
    | .ok w0, .ok w1 =>
      let startTs ← w0.toTimestamp tb
      let endTs ← w1.toTimestamp tb
      v.countPeriodsBody tb freq duty s index startTs endTs

end TB
