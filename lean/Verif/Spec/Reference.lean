import Verif.Spec.Reading
import Verif.Spec.Points
import Verif.Spec.Frequencies
/-!
# A reference program

The methods of timeboards, workshifts and intervals as a program on the plain list of workshifts.  Workshifts are their numbers in the
list, an interval is the list of the numbers of its workshifts.  There are no indexes, searches or bounds to keep: everything is
counting, filtering and adding up.  A schedule is its selector.
-/
namespace TB
variable {L : Type}

/-- A workshift as the user sees it. -/
structure Shift (L : Type) where
  start : Time
  stop : Time
  ref : Time
  duration : Int
  label : L
  deriving DecidableEq

/-- The workshifts of the timeboard are those in the list. -/
def Timeboard.ListedAs (tb : Timeboard L) (xs : List (Shift L)) : Prop :=
  tb.timeline.len = (xs.length : Int) ∧
  ∀ (k : Nat) (x : Shift L), xs[k]? = some x → ∃ w, Workshift.new tb k = .ok w ∧ w.startTime tb = .ok x.start ∧
    w.endTime tb = .ok x.stop ∧ w.toTimestamp tb = .ok x.ref ∧ w.duration tb = .ok x.duration ∧ w.label = x.label

/-- A piece read from a layout (`Spec/Reading.lean`) as a workshift. -/
def Piece.shift (f : Frame) (refEnd : Bool) (p : Piece L) : Shift L :=
  { start := f.unitStart p.first, stop := f.unitEnd p.last, ref := if refEnd then f.unitEnd p.last else f.unitStart p.first
    duration := p.last - p.first + 1, label := p.label }

namespace Reference

/-- The numbers of the workshifts for which the condition holds. -/
def those (xs : List (Shift L)) (p : Shift L → Bool) : List Int :=
  (intRange 0 xs.length).filter (fun k => (xs[k.toNat]?).any p)

/-- A property of the workshift with the number, 0 if there is no such workshift. -/
def getInt (xs : List (Shift L)) (g : Shift L → Int) (k : Int) : Int := ((xs[k.toNat]?).map g).getD 0

/-- The number if there is one, OutOfBoundsError otherwise. -/
def orOut {α : Type} : Option α → Except Err α
  | some x => .ok x
  | none => .error .outOfBounds

/-! ### Workshifts -/

/-- `get_workshift(t)`. -/
def getWorkshift (xs : List (Shift L)) (t : Time) : Except Err Int :=
  orOut (those xs (fun x => decide (x.start ≤ t ∧ t ≤ x.stop))).head?

/-- The workshifts with the duty. -/
def having (xs : List (Shift L)) (sel : L → Bool) (d : Duty) : List Int := those xs (fun x => dutyMatches d sel x.label)

/-- What `duty` means for a workshift. -/
def dutyFor (xs : List (Shift L)) (sel : L → Bool) (k : Int) : Duty → Except Err Duty
  | .same => .ok (if k ∈ having xs sel .on then .on else .off)
  | .alt => .ok (if k ∈ having xs sel .on then .off else .on)
  | .other => .error .valueError
  | d => .ok d

/-- `ws.rollforward(n, duty)`. -/
def rollforward (xs : List (Shift L)) (sel : L → Bool) (k n : Int) (duty : Duty) : Except Err Int :=
  match dutyFor xs sel k duty with
  | .error e => .error e
  | .ok d => match (having xs sel d).filter (fun j => decide (k ≤ j)) with
    | [] => .error .outOfBounds
    | k0 :: later =>
      if 0 ≤ n then orOut (k0 :: later)[n.toNat]?
      else orOut ((having xs sel d).filter (fun j => decide (j < k0))).reverse[(-n - 1).toNat]?

/-- `ws.rollback(n, duty)`. -/
def rollback (xs : List (Shift L)) (sel : L → Bool) (k n : Int) (duty : Duty) : Except Err Int :=
  match dutyFor xs sel k duty with
  | .error e => .error e
  | .ok d => match ((having xs sel d).filter (fun j => decide (j ≤ k))).reverse with
    | [] => .error .outOfBounds
    | k0 :: earlier =>
      if 0 ≤ n then orOut (k0 :: earlier)[n.toNat]?
      else orOut ((having xs sel d).filter (fun j => decide (k0 < j)))[(-n - 1).toNat]?

/-! ### Making intervals -/

/-- Where a point in time is. -/
inductive Place where
  | before
  | at (k : Int)
  | after

def place (xs : List (Shift L)) (t : Time) : Place :=
  match (those xs (fun x => decide (x.start ≤ t ∧ t ≤ x.stop))).head? with
  | some k => .at k
  | none => if xs.all (fun x => decide (t < x.start)) then .before else .after

/-- The value of `closed` takes the first and the last workshift away. -/
def cutHead (closed : String) (ms : List Int) : List Int := if closed = "00" ∨ closed = "01" then ms.drop 1 else ms
def cutTail (closed : String) (ms : List Int) : List Int := if closed = "00" ∨ closed = "10" then ms.dropLast else ms

def orElse (e : Err) (ms : List Int) : Except Err (List Int) := if ms = [] then .error e else .ok ms

/-- From one place to another. -/
def fromTo (closed : String) : Place → Place → Except Err (List Int)
  | .at i, .at j => orElse .voidInterval (cutTail closed (cutHead closed (intRange i (j + 1))))
  | .before, .before => .error .outOfBounds
  | .after, .after => .error .outOfBounds
  | .before, _ => .error .partialOutOfBounds
  | .at _, .after => .error .partialOutOfBounds
  | _, _ => .error .voidInterval

/-- `n` workshifts from, or up to, a point in time. -/
def byLength (xs : List (Shift L)) (closed : String) (t : Time) (n : Int) : Except Err (List Int) :=
  match place xs t with
  | .at k =>
    let i := if 0 < n then k else k + n + 1
    let j := if 0 < n then k + n - 1 else k
    if 0 ≤ i ∧ j < xs.length then fromTo closed (.at i) (.at j) else .error .partialOutOfBounds
  | _ => .error .outOfBounds

/-- The point in time is not before (after) all workshifts. -/
def notBefore (xs : List (Shift L)) (t : Time) : Bool := xs.any (fun x => decide (x.start ≤ t))
def notAfter (xs : List (Shift L)) (t : Time) : Bool := xs.any (fun x => decide (t ≤ x.stop))

/-- The workshifts whose reference times are in the period. -/
def referenced (xs : List (Shift L)) (p : Period) : List Int := those xs (fun x => decide (p.startTime ≤ x.ref ∧ x.ref ≤ p.endTime))

/-- A calendar period. -/
def byPeriod (xs : List (Shift L)) (clip : Bool) (closed : String) (p : Period) : Except Err (List Int) :=
  if notBefore xs p.startTime && notAfter xs p.endTime then
    orElse .voidInterval (cutTail closed (cutHead closed (referenced xs p)))
  else if referenced xs p = [] then .error .outOfBounds
  else if clip then
    let ms := if notBefore xs p.startTime then cutHead closed (referenced xs p) else referenced xs p
    orElse .outOfBounds (if notAfter xs p.endTime then cutTail closed ms else ms)
  else .error .partialOutOfBounds

/-- `get_interval(ref, length, period, clip_period, closed)`. -/
def getInterval (xs : List (Shift L)) (ref : Option IvlRef) (length : Option Int) (period : Option Freq) (clip : Bool)
    (closed : String) : Except Err (List Int) :=
  if ¬ (closed = "00" ∨ closed = "01" ∨ closed = "10" ∨ closed = "11") then .error .valueError
  else match ref, length, period with
    | none, none, none => fromTo closed (.at 0) (.at (xs.length - 1))
    | some (.pair a b), none, none =>
      fromTo closed (match a with | some t => place xs t | none => .at 0) (match b with | some t => place xs t | none => .at (xs.length - 1))
    | some (.period p), none, none => byPeriod xs clip closed p
    | some (.period p), none, some _ => byPeriod xs clip closed p
    | some (.point t), none, some f => byPeriod xs clip closed (Period.ofTime f t)
    | _, some 0, none => .error .voidInterval
    | some (.point t), some n, none => byLength xs closed t n
    | some (.period p), some n, none => byLength xs closed p.startTime n
    | _, _, _ => .error .typeError

/-! ### Intervals -/

/-- The workshifts of the interval with the duty. -/
def among (xs : List (Shift L)) (sel : L → Bool) (d : Duty) (ms : List Int) : List Int := ms.filter (fun k => decide (k ∈ having xs sel d))

/-- The value of `duty` is one which intervals know; nothing is asked of an interval without workshifts. -/
def known {α : Type} (ms : List Int) (d : Duty) (r : Except Err α) : Except Err α :=
  if d = .on ∨ d = .off ∨ d = .any ∨ ms = [] then r else .error .valueError

/-- `list(interval.workshifts(duty))`. -/
def workshifts (xs : List (Shift L)) (sel : L → Bool) (ms : List Int) (d : Duty) : Except Err (List Int) :=
  known ms d (.ok (among xs sel d ms))

/-- `interval.count(duty)`. -/
def count (xs : List (Shift L)) (sel : L → Bool) (ms : List Int) (d : Duty) : Except Err Int :=
  known ms d (.ok (among xs sel d ms).length)

/-- `interval.nth(n, duty)`. -/
def nth (xs : List (Shift L)) (sel : L → Bool) (ms : List Int) (n : Int) (d : Duty) : Except Err Int :=
  known ms d (orOut (if 0 ≤ n then (among xs sel d ms)[n.toNat]? else (among xs sel d ms).reverse[(-n - 1).toNat]?))

/-- `interval.total_duration(duty)`. -/
def totalDuration (xs : List (Shift L)) (sel : L → Bool) (ms : List Int) (d : Duty) : Except Err Int :=
  known ms d (.ok ((among xs sel d ms).map (getInt xs Shift.duration)).sum)

/-- `interval.worktime(duty)`; `num` is the number a label is, if it is one. -/
def worktime (xs : List (Shift L)) (source : String) (num : L → Option Rat) (sel : L → Bool) (ms : List Int) (d : Duty) : Except Err Rat :=
  let shifts := (among xs sel d ms).filterMap (fun k => xs[k.toNat]?)
  known ms d (if source = "duration" then .ok (shifts.map (fun x => (x.duration : Rat))).sum
    else if shifts.any (fun x => (num x.label).isNone) then .error .typeError
    else .ok (shifts.map (fun x => (num x.label).getD 0)).sum)

/-- `interval.overlap(other)`. -/
def overlap (ms ns : List Int) : List Int := ms.filter (fun k => decide (k ∈ ns))

/-- `interval.what_portion_of(other, duty)`. -/
def portion (xs : List (Shift L)) (sel : L → Bool) (ms ns : List Int) (d : Duty) : Except Err Rat :=
  known (overlap ms ns) d (.ok (((among xs sel d (overlap ms ns)).length : Rat) / ((among xs sel d ns).length : Rat)))

/-- What is wrong with a period for the purpose of counting. -/
def unfit (xs : List (Shift L)) (p : Period) : Option Err :=
  if notBefore xs p.startTime && notAfter xs p.endTime then
    if referenced xs p = [] then some .unacceptablePeriod else none
  else if referenced xs p = [] then none else some .partialOutOfBounds

/-- `interval.count_periods(freq, duty)`: of each calendar period from the start of the interval to its end, the part which belongs to
the interval. -/
def countPeriods (xs : List (Shift L)) (sel : L → Bool) (ms : List Int) (freq : Freq) (d : Duty) : Except Err Rat :=
  match ms.head?, ms.getLast? with
  | some i, some j =>
    if freq ∉ countable then .error .unacceptablePeriod
    else known ms d (
      if among xs sel d ms = [] then .ok 0
      else
        let periods := intRange (freq.base.ordOf (getInt xs Shift.start i)) (freq.base.ordOf (getInt xs Shift.stop j) + 1)
        match periods.findSome? (fun o => unfit xs ⟨freq, o⟩) with
        | some e => .error e
        | none => .ok (periods.map (fun o =>
            ((overlap (among xs sel d ms) (referenced xs ⟨freq, o⟩)).length : Rat) /
            ((overlap (having xs sel d) (referenced xs ⟨freq, o⟩)).length : Rat))).sum)
  | _, _ => .ok 0

end Reference

/-- The numbers of the workshifts of an interval. -/
def Interval.numbers (v : Interval L) : List Int := if v.isVoid then [] else intRange v.lo (v.hi + 1)

end TB
