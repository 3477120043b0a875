import Verif.Model.Interval
/-! Intervals of another timeboard given to the methods of an interval. -/
namespace TB
variable {L : Type}

/-- `Interval.what_portion_of` for an interval of the timeboard `tb'`: interval.py 723-818; void: 1078-1079. The intersection is an interval of the timeboard
of `self` (544-546), while `other` counts its workshifts itself, with the schedule of `self` (818). `Interval.overlap` takes but the positions of `other`
(541-542), so it is the same function for intervals of another timeboard. Simplification: the labels of the two timeboards are of the same type. -/
def Interval.whatPortionOfOther (v : Interval L) (tb : Timeboard L) (other : Interval L) (tb' : Timeboard L) (duty : Duty := .on)
    (schedule : Option (Schedule L) := none) : Except Err Rat :=
  if v.isVoid then .ok 0
  else do
    let s := schedule.getD v.schedule
    let x ← v.overlap tb other (some s)
    let c ← x.count tb duty
    if c = 0 then return 0
    else
      let d ← other.count tb' duty (some s)
      pyDiv c d

/-! A schedule of another timeboard given as `schedule`: it brings its own timeline `home` (core.py 1180) and answers from it. Nothing in the code compares this
timeline with the one of the timeboard in question. -/

/-- `Workshift(tb, loc, schedule)`: workshift.py 72-90. The label is the one that the schedule tells (79, core.py 1204-1205), and the location is refused only if
the schedule does not know it. -/
def Workshift.newUnder (home : Timeline L) (loc : Int) (s : Schedule L) : Except Err (Workshift L) :=
  match home.label loc with
  | .error _ => .error .outOfBounds
  | .ok l => .ok { loc := loc, label := l, schedule := s }

/-- `tb.get_workshift(t, schedule)`: timeboard.py 438-496. -/
def Timeboard.getWorkshiftUnder (tb : Timeboard L) (home : Timeline L) (t : Time) (s : Schedule L) : Except Err (Workshift L) :=
  match tb.locate t with
  | .error e => .error e
  | .ok loc => match loc.pos with
    | none => .error .outOfBounds
    | some p => Workshift.newUnder home p s

/-- `Workshift.is_on_duty`: workshift.py 156-171, core.py 1207-1209. -/
def Workshift.isOnDutyUnder (w : Workshift L) (home : Timeline L) (s : Schedule L) : Except Err Bool := s.isOnDuty home w.loc

/-- `Workshift.is_off_duty`: workshift.py 173-189, core.py 1211-1212. -/
def Workshift.isOffDutyUnder (w : Workshift L) (home : Timeline L) (s : Schedule L) : Except Err Bool := s.isOffDuty home w.loc

/-- `Workshift._get_duty_index`: workshift.py 191-204; `schedule.index` is as long as its own timeline (core.py 1200-1202). -/
def Workshift.dutyIndexUnder (w : Workshift L) (home : Timeline L) (duty : Duty) (s : Schedule L) : Except Err (List Int) := do
  let isOn ← w.isOnDutyUnder home s
  let isOff ← w.isOffDutyUnder home s
  if duty = .on ∨ (duty = .same ∧ isOn = true) ∨ (duty = .alt ∧ isOff = true) then return s.onIdx
  else if duty = .off ∨ (duty = .same ∧ isOff = true) ∨ (duty = .alt ∧ isOn = true) then return s.offIdx
  else if duty = .any then return home.index
  else throw .valueError

/-- `Workshift(self._tb, idx[i], schedule)` at workshift.py 343, 487 and interval.py 392. -/
def workshiftAtUnder (home : Timeline L) (idx : List Int) (i : Int) (s : Schedule L) : Except Err (Workshift L) :=
  match pyGet? idx i with
  | none => .error .indexError
  | some p => Workshift.newUnder home p s

/-- `Workshift.rollforward`: workshift.py 206-343. -/
def Workshift.rollforwardUnder (w : Workshift L) (home : Timeline L) (steps : Int) (duty : Duty) (s : Schedule L) : Except Err (Workshift L) := do
  let idx ← w.dutyIndexUnder home duty s
  let lenIdx : Int := idx.length
  let i := ssLeft idx w.loc
  if i = lenIdx ∨ i + steps < 0 ∨ i + steps ≥ lenIdx then throw .outOfBounds
  workshiftAtUnder home idx (i + steps) s

/-- `Workshift.rollback`: workshift.py 345-487. -/
def Workshift.rollbackUnder (w : Workshift L) (home : Timeline L) (steps : Int) (duty : Duty) (s : Schedule L) : Except Err (Workshift L) := do
  let idx ← w.dutyIndexUnder home duty s
  let lenIdx : Int := idx.length
  let i := scanBack idx w.loc idx.length
  if i = -1 ∨ i - steps < 0 ∨ i - steps ≥ lenIdx then throw .outOfBounds
  workshiftAtUnder home idx (i - steps) s

/-- `Interval._get_duty_idx`: interval.py 250-265. -/
def Interval.dutyIdxUnder (v : Interval L) (home : Timeline L) (duty : Duty) (s : Schedule L) : Except Err (List Int × Option (Int × Int)) :=
  match duty with
  | .on => .ok (s.onIdx, v.findBounds s.onIdx)
  | .off => .ok (s.offIdx, v.findBounds s.offIdx)
  | .any => .ok (home.index, some (v.lo, v.hi))
  | _ => .error .valueError

/-- `list(interval.workshifts(duty, schedule))`: interval.py 267-314; void: 1058-1060. -/
def Interval.workshiftsUnder (v : Interval L) (home : Timeline L) (duty : Duty) (s : Schedule L) : Except Err (List (Workshift L)) :=
  if v.isVoid then .ok []
  else match v.dutyIdxUnder home duty s with
    | .error e => .error e
    | .ok (_, none) => .ok []
    | .ok (idx, some (a, b)) => (slice idx a b).mapM (fun i => Workshift.newUnder home i s)

/-- `Interval.nth`: interval.py 329-392; void: 1062-1065. -/
def Interval.nthUnder (v : Interval L) (home : Timeline L) (n : Int) (duty : Duty) (s : Schedule L) : Except Err (Workshift L) :=
  if v.isVoid then .error .outOfBounds
  else match v.dutyIdxUnder home duty s with
    | .error e => .error e
    | .ok (_, none) => .error .outOfBounds
    | .ok (idx, some (a, b)) =>
      let i := if n ≥ 0 then a + n else b + n + 1
      if i < a ∨ i > b then .error .outOfBounds
      else workshiftAtUnder home idx i s

/-- `Interval.count`: interval.py 440-474; void: 1067-1068. -/
def Interval.countUnder (v : Interval L) (home : Timeline L) (duty : Duty) (s : Schedule L) : Except Err Int :=
  if v.isVoid then .ok 0
  else match v.dutyIdxUnder home duty s with
    | .error e => .error e
    | .ok (_, none) => .ok 0
    | .ok (_, some (a, b)) => .ok (b - a + 1)

/-- `Interval.total_duration`: interval.py 882-933; void: 1081-1082. The durations are those of the timeboard (929-933). -/
def Interval.totalDurationUnder (v : Interval L) (tb : Timeboard L) (home : Timeline L) (duty : Duty) (s : Schedule L) : Except Err Int :=
  if v.isVoid then .ok 0
  else match v.dutyIdxUnder home duty s with
    | .error e => .error e
    | .ok (_, none) => .ok 0
    | .ok (idx, some (a, b)) => match tb.timeline.durationsFor (slice idx a b) with
      | .error e => .error e
      | .ok ds => .ok ds.sum

/-- `Interval.worktime`: interval.py 830-880, 935-1013; void: 1084-1085. The labels are those of the timeboard (879-880). -/
def Interval.worktimeUnder (v : Interval L) (tb : Timeboard L) (home : Timeline L) (num : L → Option Rat) (duty : Duty) (s : Schedule L) : Except Err Rat :=
  if v.isVoid then .ok 0
  else if tb.worktimeSource = "labels" then
    match v.dutyIdxUnder home duty s with
    | .error e => .error e
    | .ok (_, none) => .ok 0
    | .ok (idx, some (a, b)) => match (slice idx a b).mapM (fun i => tb.timeline.label i) with
      | .error e => .error e
      | .ok ls => sumNums num ls
  else if tb.worktimeSource = "duration" then (v.totalDurationUnder tb home duty s).map (fun d : Int => (d : Rat))
  else .error .runtimeError

/-- `Workshift.worktime`: workshift.py 489-586. The label is the one which the workshift has got from its schedule when it was made. -/
def Workshift.worktimeUnder (w : Workshift L) (tb : Timeboard L) (home : Timeline L) (num : L → Option Rat) (duty : Duty) (s : Schedule L) : Except Err Rat := do
  let isOn ← w.isOnDutyUnder home s
  let isOff ← w.isOffDutyUnder home s
  let flag ← match duty with
    | .on => pure isOn
    | .off => pure isOff
    | .any => pure true
    | _ => throw .valueError
  if flag then
    if tb.worktimeSource = "labels" then
      match num w.label with
      | none => throw .typeError
      | some q => return q
    else if tb.worktimeSource = "duration" then
      let d ← w.duration tb
      return (d : Rat)
    else throw .runtimeError
  else return 0

/-- `Interval.what_portion_of`: interval.py 723-818; void: 1078-1079. -/
def Interval.whatPortionOfUnder (v : Interval L) (tb : Timeboard L) (home : Timeline L) (other : Interval L) (duty : Duty) (s : Schedule L) : Except Err Rat :=
  if v.isVoid then .ok 0
  else do
    let x ← v.overlap tb other (some s)
    let c ← x.countUnder home duty s
    if c = 0 then return 0
    else
      let d ← other.countUnder home duty s
      pyDiv c d

/-- The loop over periods: interval.py 665-684. -/
def periodLoopUnder (tb : Timeboard L) (home : Timeline L) (freq : Freq) (duty : Duty) (s : Schedule L) :
    List Int → Except Err (List (Option (Interval L × Int)))
  | [] => .ok []
  | o :: os =>
    match tb.getInterval (some (.period ⟨freq, o⟩)) none none false "11" (some s) with
    | .error .outOfBounds => (periodLoopUnder tb home freq duty s os).map (fun r => none :: r)
    | .error .voidInterval => .error .unacceptablePeriod
    | .error e => .error e
    | .ok ivl => match ivl.countUnder home duty s with
      | .error e => .error e
      | .ok c => (periodLoopUnder tb home freq duty s os).map (fun r => some (ivl, c) :: r)

/-- The part of `count_periods` after the first and the last workshift with the duty are known: interval.py 665-721. -/
def Interval.countPeriodsBodyUnder (v : Interval L) (tb : Timeboard L) (home : Timeline L) (freq : Freq) (duty : Duty) (s : Schedule L)
    (index : Frame) (startTs endTs : Time) : Except Err Rat := do
  let entries ← periodLoopUnder tb home freq duty s index.ords
  let i0 ← index.getLoc startTs
  let i1 ← index.getLoc endTs
  if endTs ≤ index.unitEnd i0 then
    let e0 ← periodEntry entries i0
    let c ← v.countUnder home duty s
    pyDiv c e0.2
  else
    let e0 ← periodEntry entries i0
    let t0 ← timeOrTypeError (e0.1.endTime tb)
    let v0 ← tb.getInterval (some (.pair (some startTs) (some t0))) none none false "11" (some s)
    let c0 ← v0.countUnder home duty s
    let q0 ← pyDiv c0 e0.2
    let e1 ← periodEntry entries i1
    let t1 ← timeOrTypeError (e1.1.startTime tb)
    let v1 ← tb.getInterval (some (.pair (some t1) (some endTs))) none none false "11" (some s)
    let c1 ← v1.countUnder home duty s
    let q1 ← pyDiv c1 e1.2
    if i1 - i0 - 1 > 0 then
      let full ← countPositive ((entries.take i1.toNat).drop (i0 + 1).toNat)
      return q0 + q1 + (full : Rat)
    else return q0 + q1

/-- `Interval.count_periods`: interval.py 554-721; void: 1075-1076. The times of the first and the last workshift are looked up in the timeboard (660-661). -/
def Interval.countPeriodsUnder (v : Interval L) (tb : Timeboard L) (home : Timeline L) (freq : Freq) (duty : Duty) (s : Schedule L) : Except Err Rat :=
  if v.isVoid then .ok 0
  else if !supportedPeriod freq then .error .unacceptablePeriod
  else do
    let a ← timeOrTypeError (v.startTime tb)
    let b ← timeOrTypeError (v.endTime tb)
    let index ← Frame.new freq a b
    match v.nthUnder home 0 duty s, v.nthUnder home (-1) duty s with
    | .error .outOfBounds, _ => return 0
    | .error e, _ => throw e
    | .ok _, .error .outOfBounds => return 0
    | .ok _, .error e => throw e
    | .ok w0, .ok w1 =>
      let startTs ← w0.toTimestamp tb
      let endTs ← w1.toTimestamp tb
      v.countPeriodsBodyUnder tb home freq duty s index startTs endTs

end TB
