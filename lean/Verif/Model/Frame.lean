import Verif.Model.Freq
/-!
# Frames and spans

Models `timeboard/core.py` `_Frame` (159-547) and `_Span` (550-581).
-/
namespace TB

/-- `_Frame`: core.py 159-223.  A `PeriodIndex` produced by `period_range`, i.e. the `n` ordinals
`o0, o0 + mult, ...` of frequency `freq` (`_base_unit_freq`). -/
structure Frame where
  freq : Freq
  o0 : Int
  n : Nat
  deriving DecidableEq

/-- Ordinal of `frame[i]`. -/
def Frame.ord (f : Frame) (i : Int) : Int := f.o0 + (f.freq.mult : Int) * i

/-- The ordinals of the frame, as a list. -/
def Frame.ords (f : Frame) : List Int := (List.range f.n).map (fun (i : Nat) => f.ord i)

/-- `frame[i].start_time`. -/
def Frame.unitStart (f : Frame) (i : Int) : Time := f.freq.base.startOf (f.ord i)

/-- `frame[i].end_time`. -/
def Frame.unitEnd (f : Frame) (i : Int) : Time := f.freq.base.startOf (f.ord i + f.freq.mult) - 1

/-- `_Frame.__new__`: core.py 198-223.  `period_range(start, end, freq)`; an empty result raises
VoidIntervalError.  Line 214 (RuntimeError) is about overflow of timestamps, which are unbounded here;
the ascending order it checks is the theorem `Frame.unitStart_lt`.
Simplification: `start` and `end` are timestamps (not Periods). -/
def Frame.new (freq : Freq) (start stop : Time) : Except Err Frame :=
  match periodRange freq start stop with
  | [] => .error .voidInterval
  | o :: os => .ok { freq := freq, o0 := o, n := os.length + 1 }

/-- `_Frame.start_time`: core.py 225-227. -/
def Frame.startTime (f : Frame) : Time := f.unitStart 0

/-- `_Frame.end_time`: core.py 229-231. -/
def Frame.endTime (f : Frame) : Time := f.unitEnd ((f.n : Int) - 1)

/-- `_Frame.start_times`: core.py 222, 233-235. -/
def Frame.startTimes (f : Frame) : List Time := (List.range f.n).map (fun (i : Nat) => f.unitStart i)

/-- `_Frame.get_loc` with `not_in_range=None`: core.py 237-245. -/
def Frame.getLoc (f : Frame) (t : Time) : Except Err Int :=
  if t > f.endTime ∨ t < f.startTime then .error .keyError
  else .ok (ssRight f.startTimes t - 1)

/-- `_Frame.get_loc_vectorized` with both span bounds given: core.py 247-261.  The array of start times is
extended by the last start time plus one second (`SMALLEST_TIMEDELTA`, core.py 22). -/
def Frame.getLocVectorized (f : Frame) (ts : List Time) (spanFirst spanLast : Int) : List Int :=
  let starts := f.startTimes ++ [f.unitStart ((f.n : Int) - 1) + nsSec]
  let arr := ts.map (fun t => ssRight starts t - 1)
  arr.filter (fun i => decide (spanFirst < i) && decide (i ≤ spanLast))

/-- `_Span`: core.py 550-581. -/
structure Span where
  first : Int
  last : Int
  skipLeft : Int := 0
  skipRight : Int := 0
  deriving DecidableEq, Repr

/-- `_Frame.check_span`: core.py 263-281.  `self[i]` accepts negative integers as Python does. -/
def Frame.checkSpan (f : Frame) (s : Span) : Except Err Unit :=
  match pyGet? f.ords s.first, pyGet? f.ords s.last with
  | some _, some _ =>
    if s.first < 0 ∨ s.last < 0 then .error .outOfBounds
    else if s.first > s.last then .error .voidInterval
    else .ok ()
  | _, _ => .error .outOfBounds

/-- `_Frame._locate_subspans`: core.py 283-335. -/
def Frame.locateSubspans (f : Frame) (s : Span) (points : List Time) : Except Err (List (Int × Int)) := do
  f.checkSpan s
  let splitPositions := sortedSet (f.getLocVectorized points s.first s.last)
  let startPositions := s.first :: splitPositions
  let endPositions := splitPositions.map (fun x => x - 1) ++ [s.last]
  return startPositions.zip endPositions

/-- `_Frame._create_subspans`: core.py 337-363. -/
def Frame.createSubspans (f : Frame) (s : Span) (points : List Time) : Except Err (List Span) := do
  let bounds ← f.locateSubspans s points
  let spans := bounds.map (fun b => ({ first := b.1, last := b.2 } : Span))
  if spans.isEmpty then return [s] else return spans

/-- `_Frame.partition_at_marks`: core.py 515-547. -/
def Frame.partitionAtMarks (f : Frame) (s : Span) (marks : List Time) : Except Err (List Span) :=
  f.createSubspans s marks

/-- `Marker`: core.py 1451-1658.  `at` holds, for each dictionary of keyword arguments given by the user,
the function `how(·, normalize_by=·, **kwargs)`: from a stencil frame and the base unit frequency to points
in time.  User-defined `how` functions are thus included; the built-in ones are in `Model/When.lean`. -/
structure Marker where
  each : Freq
  ats : List (Frame → Freq → Except Err (List Time))

/-- `spans[0].skip_left = x`: core.py 500. -/
def setFirstSkip (x : Int) : List Span → List Span
  | [] => []
  | s :: ss => { s with skipLeft := x } :: ss

/-- `spans[-1].skip_right = x`: core.py 501. -/
def setLastSkip (x : Int) : List Span → List Span
  | [] => []
  | [s] => [{ s with skipRight := x }]
  | s :: ss => s :: setLastSkip x ss

/-- `len(dangle.difference(units))`: core.py 481-482, 492-493. -/
def countDifference (dangle units : List Int) : Int := ((dangle.filter (fun o => !units.contains o)).length : Int)

/-- What `partition_with_marker` derives from the marker before the dangles are counted
(local variables at core.py 417-469). -/
structure Stencil where
  leftBound : Time
  rightBound : Time
  leftUndefined : Bool
  rightUndefined : Bool
  points : List Time

/-- The loop over `marker.at`: core.py 433-438. -/
def collectAts (stencil : Frame) (baseFreq : Freq) :
    List (Frame → Freq → Except Err (List Time)) → Except Err (List Time)
  | [] => .ok []
  | h :: hs => do
    let pts ← h stencil baseFreq
    let rest ← collectAts stencil baseFreq hs
    return pts ++ rest

/-- The points kept of the sorted candidates: core.py 443-448 (Python slice with
`max(0, searchsorted(span_start, right) - 1)` and `min(len, searchsorted(span_end, left) + 1)`). -/
def sliceAtPoints (pts : List Time) (spanStart spanEnd : Time) : List Time :=
  let lo := max 0 (ssRight pts spanStart - 1)
  let hi := min (pts.length : Int) (ssLeft pts spanEnd + 1)
  (pts.take hi.toNat).drop lo.toNat

/-- core.py 420-469: `none` stands for the early return at 459. -/
def Frame.stencilFor (f : Frame) (m : Marker) (spanStart spanEnd : Time) : Except Err (Option Stencil) :=
  if m.ats.isEmpty then do
    let stencil ← Frame.new m.each spanStart spanEnd
    return some { leftBound := stencil.startTime, rightBound := stencil.endTime
                  leftUndefined := false, rightUndefined := false, points := stencil.startTimes }
  else do
    let stencil ← Frame.new m.each (spanStart - getFreqDelta m.each) (spanEnd + getFreqDelta m.each)
    let cand ← collectAts stencil f.freq m.ats
    let pts := sliceAtPoints (sortList cand) spanStart spanEnd
    match pts.head?, pts.getLast? with
    | some a0, some a1 =>
      return some { leftBound := min a0 spanStart, leftUndefined := decide (a0 > spanStart)
                    rightBound := max spanEnd (a1 - nsSec), rightUndefined := decide (a1 < spanEnd)
                    points := pts }
    | _, _ => return none

/-- core.py 475-484. -/
def Frame.skipBefore (f : Frame) (s : Span) (st : Stencil) (spanStart : Time) : Int :=
  if st.leftUndefined then -1
  else if st.leftBound < spanStart then
    countDifference (periodRange f.freq st.leftBound spanStart) (f.ords.drop s.first.toNat)
  else 0

/-- core.py 486-495. -/
def Frame.skipAfter (f : Frame) (s : Span) (st : Stencil) (spanEnd : Time) : Int :=
  if st.rightUndefined then -1
  else if st.rightBound > spanEnd then
    countDifference (periodRange f.freq (f.unitStart s.last) st.rightBound) (f.ords.take (s.last + 1).toNat)
  else 0

/-- `_Frame.partition_with_marker`: core.py 365-513. -/
def Frame.partitionWithMarker (f : Frame) (s : Span) (m : Marker) : Except Err (List Span) := do
  if !checkGroupbyFreq f.freq m.each then throw .unacceptablePeriod
  f.checkSpan s
  let spanStart := f.unitStart s.first
  let spanEnd := f.unitEnd s.last
  match ← f.stencilFor m spanStart spanEnd with
  | none => return [{ first := s.first, last := s.last, skipLeft := -1, skipRight := -1 }]
  | some st =>
    let before := f.skipBefore s st spanStart
    let after := f.skipAfter s st spanEnd
    let spans ← f.createSubspans s st.points
    return setLastSkip after (setFirstSkip before spans)

end TB
