import Verif.Model.Frame
/-!
# The limits of pandas timestamps

A `pd.Timestamp` is a 64-bit number of nanoseconds.  Everywhere else in the model time is unbounded; here the constructor of `_Frame` and
`get_loc` are repeated with the limits.  Conversion of a period to a timestamp outside the limits raises OutOfBoundsDatetime, which
is a ValueError, in newer versions of pandas; in older ones the number wraps around (which core.py 213-219 is there to detect).
-/
namespace TB

/-- What pandas does with a time outside the limits. -/
inductive Overflow where
  | wraps
  | raises
  deriving DecidableEq

/-- `pd.Timestamp.min`: 21 September 1677 00:12:43.145224193 (the least 64-bit number is NaT). -/
def minTime : Time := -2 ^ 63 + 1

/-- `pd.Timestamp.max`: 11 April 2262 23:47:16.854775807. -/
def maxTime : Time := 2 ^ 63 - 1

/-- The timestamp of a time, e.g. `period.start_time`.  Simplification: -2 ** 63, i.e. NaT, which is not the start or end of any
period, is treated like the other numbers. -/
def toStamp (m : Overflow) (t : Time) : Except Err Time :=
  if minTime ≤ t ∧ t ≤ maxTime then .ok t
  else match m with
    | .raises => .error .valueError
    | .wraps => .ok ((t + 2 ^ 63) % 2 ^ 64 - 2 ^ 63)

/-- `_Frame.__new__`: core.py 198-223, with the attribute `_start_times`. -/
def Frame.newLimited (m : Overflow) (freq : Freq) (start stop : Time) : Except Err (Frame × List Time) := do
  let f ← Frame.new freq start stop
  let s0 ← toStamp m (f.unitStart 0)
  let s1 ← toStamp m (f.unitStart ((f.n : Int) - 1))
  if s0 > s1 then throw .runtimeError
  else
    let starts ← f.startTimes.mapM (toStamp m)
    return (f, starts)

/-- `_Frame.get_loc`: core.py 225-231, 237-245. -/
def Frame.getLocLimited (m : Overflow) (f : Frame) (starts : List Time) (t : Time) : Except Err Int := do
  let stop ← toStamp m f.endTime
  if t > stop then throw .keyError
  else
    let start ← toStamp m f.startTime
    if t < start then throw .keyError
    else return ssRight starts t - 1

end TB
