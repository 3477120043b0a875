import Verif.Model.Interval
/-!
# Integers of Python and of numpy

The positions of workshifts are integers of two kinds.  `get_loc` of a pandas index and `len` return integers of Python; the elements of the arrays
`on_duty_index`, `off_duty_index`, `index` of a schedule (core.py 1184-1202) and the sums of pandas are integers of numpy.  In Python 3 the latter are not
instances of `int`, and the code asks `isinstance(x, int)` at interval.py 16 and timeboard.py 820.  The rest of the model does not tell the
two kinds apart.

Simplifications: Python 3 (in Python 2 on 64-bit Linux and macOS the integers of numpy are instances of `int`); `Index.get_loc` of pandas returns an integer of
Python.
-/
namespace TB
variable {L : Type}

/-- An integer; `np`: it belongs to a class of numpy, so `isinstance(x, int)` is False. -/
structure KInt where
  val : Int
  np : Bool
  deriving DecidableEq, Repr

/-- A Workshift; `np` is the kind of `_loc` (workshift.py 88). -/
structure KWorkshift (L : Type) where
  ws : Workshift L
  np : Bool

/-- An Interval; `np0`, `np1` are the kinds of `_loc[0]` and `_loc[1]` (interval.py 40). -/
structure KInterval (L : Type) where
  ivl : Interval L
  np0 : Bool
  np1 : Bool

/-- An element of `bounds`: interval.py 13-18. -/
inductive KBound (L : Type) where
  | int (n : KInt)
  | workshift (w : KWorkshift L)

/-- `Timeboard.get_workshift`: timeboard.py 438-496.  The position comes from `Index.get_loc` (core.py 916). -/
def Timeboard.getWorkshiftK (tb : Timeboard L) (t : Time) (sch : Option (Schedule L) := none) : Except Err (KWorkshift L) :=
  (tb.getWorkshift t sch).map (fun w => ⟨w, false⟩)

/-- `Workshift.rollforward`: workshift.py 206-343.  The position is an element of an index array (343). -/
def KWorkshift.rollforward (w : KWorkshift L) (tb : Timeboard L) (steps : Int := 0) (duty : Duty := .on) (sch : Option (Schedule L) := none) :
    Except Err (KWorkshift L) := (w.ws.rollforward tb steps duty sch).map (fun w => ⟨w, true⟩)

/-- `Workshift.rollback`: workshift.py 345-487.  The position is an element of an index array (487). -/
def KWorkshift.rollback (w : KWorkshift L) (tb : Timeboard L) (steps : Int := 0) (duty : Duty := .on) (sch : Option (Schedule L) := none) :
    Except Err (KWorkshift L) := (w.ws.rollback tb steps duty sch).map (fun w => ⟨w, true⟩)

/-- `Interval.nth` (also `first`, `last`): interval.py 329-438.  The position is an element of an index array (392). -/
def KInterval.nth (v : KInterval L) (tb : Timeboard L) (n : Int) (duty : Duty := .on) (sch : Option (Schedule L) := none) :
    Except Err (KWorkshift L) := (v.ivl.nth tb n duty sch).map (fun w => ⟨w, true⟩)

/-- `list(interval.workshifts(duty, schedule))`: interval.py 267-314.  The positions are the elements of an index array (313). -/
def KInterval.workshifts (v : KInterval L) (tb : Timeboard L) (duty : Duty := .on) (sch : Option (Schedule L) := none) :
    Except Err (List (KWorkshift L)) := (v.ivl.workshifts tb duty sch).map (fun ws => ws.map (fun w => ⟨w, true⟩))

/-- `handle_bound`: interval.py 13-27. -/
def handleBoundK (tb : Timeboard L) (b : KBound L) : Except Err KInt :=
  let checked (n : KInt) : Except Err KInt := if 0 ≤ n.val ∧ n.val < tb.timeline.len then .ok n else .error .outOfBounds
  match b with
  | .workshift w => checked ⟨w.ws.loc, w.np⟩
  | .int n => if n.np then .error .typeError else checked n

/-- `_BaseInterval.__init__`: interval.py 11-63. -/
def KInterval.make (tb : Timeboard L) (b0 b1 : KBound L) (schedule : Option (Schedule L)) (void : Bool) : Except Err (KInterval L) :=
  match handleBoundK tb b0 with
  | .error e => .error e
  | .ok a => match handleBoundK tb b1 with
    | .error e => .error e
    | .ok b =>
      let s := schedule.getD tb.defaultSchedule
      if void then
        if a.val ≤ b.val then .error .voidInterval
        else .ok ⟨{ lo := a.val, hi := b.val, length := 0, isVoid := true, schedule := s }, a.np, b.np⟩
      else if a.val > b.val then .error .voidInterval
      else .ok ⟨{ lo := a.val, hi := b.val, length := b.val - a.val + 1, isVoid := false, schedule := s }, a.np, b.np⟩

/-- Python's `max(x, y)`: the first of equal values. -/
def KInt.greater (x y : KInt) : KInt := if y.val > x.val then y else x

/-- Python's `min(x, y)`: the first of equal values. -/
def KInt.lesser (x y : KInt) : KInt := if y.val < x.val then y else x

/-- `_loc[0]`. -/
def KInterval.lo (v : KInterval L) : KInt := ⟨v.ivl.lo, v.np0⟩

/-- `_loc[1]`. -/
def KInterval.hi (v : KInterval L) : KInt := ⟨v.ivl.hi, v.np1⟩

/-- `Interval.overlap` (and `x * y`): interval.py 538-551; void: 1070-1073. -/
def KInterval.overlap (v : KInterval L) (tb : Timeboard L) (other : KInterval L) (schedule : Option (Schedule L) := none) :
    Except Err (KInterval L) :=
  let s := schedule.getD v.ivl.schedule
  if v.ivl.isVoid then KInterval.make tb (.int v.lo) (.int v.hi) (some s) true
  else
    let a := KBound.int (KInt.greater v.lo other.lo)
    let b := KBound.int (KInt.lesser v.hi other.hi)
    match KInterval.make tb a b (some s) false with
    | .error .voidInterval => KInterval.make tb a b (some s) true
    | r => r

/-- `Interval.what_portion_of` (and `x / y`): interval.py 808-828; void: 1078-1079. -/
def KInterval.whatPortionOf (v : KInterval L) (tb : Timeboard L) (other : KInterval L) (duty : Duty := .on)
    (schedule : Option (Schedule L) := none) : Except Err Rat :=
  if v.ivl.isVoid then .ok 0
  else do
    let s := schedule.getD v.ivl.schedule
    let x ← v.overlap tb other (some s)
    let c ← x.ivl.count tb duty
    if c = 0 then return 0
    else
      let d ← other.ivl.count tb duty (some s)
      pyDiv c d

/-- `Interval.count`: interval.py 440-474: the difference of the bounds of the interval (duty 'any') or of two positions found by counting
from 0 (235-248). -/
def KInterval.count (v : KInterval L) (tb : Timeboard L) (duty : Duty := .on) (schedule : Option (Schedule L) := none) : Except Err KInt :=
  (v.ivl.count tb duty schedule).map (fun n => ⟨n, !v.ivl.isVoid && decide (duty = .any) && (v.np0 || v.np1)⟩)

/-- `Interval.length`: interval.py 47-52, 204-206. -/
def KInterval.length (v : KInterval L) : KInt := ⟨v.ivl.length, !v.ivl.isVoid && (v.np0 || v.np1)⟩

/-- `Interval.total_duration`: interval.py 882-933: 0 if there are no workshifts with the duty, a sum of pandas otherwise; void: 1081-1082. -/
def KInterval.totalDuration (v : KInterval L) (tb : Timeboard L) (duty : Duty := .on) (schedule : Option (Schedule L) := none) : Except Err KInt :=
  match v.ivl.totalDuration tb duty schedule with
  | .error e => .error e
  | .ok n => .ok ⟨n, !v.ivl.isVoid && match v.ivl.dutyIdx tb duty (schedule.getD v.ivl.schedule) with
      | .ok (_, some _) => true
      | _ => false⟩

/-- `Timeboard.get_interval`: timeboard.py 498-788.  The type of `length` is checked at 820, after `closed` (730-731); with `period` it is TypeError,
too (760-762).  The positions are integers of Python. -/
def Timeboard.getIntervalK (tb : Timeboard L) (ref : Option IvlRef) (length : Option KInt) (period : Option Freq) (clip : Bool) (closed : String)
    (schedule : Option (Schedule L)) : Except Err (KInterval L) :=
  match length with
  | some ⟨_, true⟩ => if closed ∈ ["00", "01", "10", "11"] then .error .typeError else .error .valueError
  | some ⟨n, false⟩ => (tb.getInterval ref (some n) period clip closed schedule).map (fun v => ⟨v, false, false⟩)
  | none => (tb.getInterval ref none period clip closed schedule).map (fun v => ⟨v, false, false⟩)

end TB
