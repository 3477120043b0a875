import Verif.Model.Values
import Verif.Spec.Reachable
/-! Which values of arguments mean something, and what. -/
namespace TB
variable {L : Type}

/-- The value stands for a point in time: a number is the count of nanoseconds since 1970, a readable string, a Timestamp-like, a
Period (its start), a Workshift (its reference time). -/
inductive PyValue.Denotes : PyValue L → Time → Prop where
  | int (n : Int) : Denotes (.int n) n
  | float (t : Time) : Denotes (.float t) t
  | word {s : Word} {t : Time} (h : s.time = some t) : Denotes (.word s) t
  | time (t : Time) : Denotes (.time t) t
  | period (p : Period) : Denotes (.period p) p.startTime
  | workshift (loc : Int) (ref : Time) : Denotes (.workshift loc ref) ref

/-- None or NaT. -/
inductive PyValue.Null : PyValue L → Prop where
  | pyNone : Null .pyNone
  | nat : Null .nat

/-- A point in time as the code takes it on a timeboard which ends at `e`: null stands for the end. -/
def PyValue.DenotesOrEnd (e : Time) (v : PyValue L) (t : Time) : Prop := v.Denotes t ∨ (v.Null ∧ t = e)

/-- The optional argument `schedule`. -/
inductive PyValue.SchedArg : PyValue L → Option (Schedule L) → Prop where
  | pyNone : SchedArg .pyNone none
  | schedule (s : Schedule L) : SchedArg (.schedule s) (some s)

/-- A whole number; booleans are whole numbers. -/
inductive PyValue.Whole : PyValue L → Int → Prop where
  | int (n : Int) : Whole (.int n) n
  | true : Whole (.bool true) 1
  | false : Whole (.bool false) 0

/-- A bound of an interval: null or a point in time. -/
inductive PyValue.BoundArg : PyValue L → Option Time → Prop where
  | null {v : PyValue L} (h : v.Null) : BoundArg v none
  | point {v : PyValue L} {t : Time} (h : v.Denotes t) : BoundArg v (some t)

/-- The optional argument `length`. -/
inductive PyValue.LengthArg : PyValue L → Option Int → Prop where
  | pyNone : LengthArg .pyNone none
  | whole {v : PyValue L} {n : Int} (h : v.Whole n) : LengthArg v (some n)

/-- The optional argument `period`. -/
inductive PyValue.FreqArg : PyValue L → Option Freq → Prop where
  | pyNone : FreqArg .pyNone none
  | word {s : Word} {f : Freq} (h : s.freq = some f) : FreqArg (.word s) (some f)

/-- What the arguments of `get_interval` mean together: `interval_ref`, `length`, `period` on a timeboard which ends at `e`.
Null is the whole timeboard, but together with `length` it is the end of the timeboard. -/
inductive PyValue.Reading (e : Time) : (ref length period : PyValue L) → Option IvlRef → Option Int → Option Freq → Prop where
  | whole {ref : PyValue L} (h : ref.Null) : Reading e ref .pyNone .pyNone none none none
  | wholeList {x : PyValue L} (h : x.Null) : Reading e (.list [x]) .pyNone .pyNone none none none
  | pair {a b : PyValue L} {x y : Option Time} (rest : List (PyValue L)) (ha : a.BoundArg x) (hb : b.BoundArg y) :
      Reading e (.tuple (a :: b :: rest)) .pyNone .pyNone (some (.pair x y)) none none
  | period (p : Period) : Reading e (.period p) .pyNone .pyNone (some (.period p)) none none
  | length {ref length : PyValue L} {t : Time} {n : Int} (hr : ref.DenotesOrEnd e t) (hl : length.Whole n) :
      Reading e ref length .pyNone (some (.point t)) (some n) none
  | byFreq {ref period : PyValue L} {t : Time} {f : Freq} (hr : ref.Denotes t) (hp : ∀ p, ref ≠ .period p)
      (hf : period.FreqArg (some f)) : Reading e ref .pyNone period (some (.point t)) none (some f)
  | periodAnyFreq (p : Period) {period : PyValue L} (h : period ≠ .pyNone) :
      Reading e (.period p) .pyNone period (some (.period p)) none none

/-- A bound given to `Interval(...)`: a Workshift or a whole number. -/
inductive PyValue.Position : PyValue L → Int → Prop where
  | workshift (loc : Int) (ref : Time) : Position (.workshift loc ref) loc
  | whole {v : PyValue L} {n : Int} (h : v.Whole n) : Position v n

/-- The bounds given to `Interval(...)`: at least two items, the others are not looked at. -/
inductive PyValue.BoundsArg : PyValue L → Int × Int → Prop where
  | tuple {x y : PyValue L} {a b : Int} (rest : List (PyValue L)) (hx : x.Position a) (hy : y.Position b) :
      BoundsArg (.tuple (x :: y :: rest)) (a, b)
  | list {x y : PyValue L} {a b : Int} (rest : List (PyValue L)) (hx : x.Position a) (hy : y.Position b) :
      BoundsArg (.list (x :: y :: rest)) (a, b)

/-- The items of a dictionary of amendments with their keys read on a timeboard which ends at `e`. -/
inductive KeysRead (e : Time) : List (PyValue L × L) → List (Time × L) → Prop where
  | nil : KeysRead e [] []
  | cons {v : PyValue L} {t : Time} {l : L} {items : List (PyValue L × L)} {ts : List (Time × L)} (h : v.DenotesOrEnd e t)
      (hs : KeysRead e items ts) : KeysRead e ((v, l) :: items) ((t, l) :: ts)

end TB
