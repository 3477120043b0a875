/-!
# Exceptions, Python indexing and numpy primitives

Shared vocabulary of the model.  Nothing in this file is specific to timeboard, except `Err`.
-/
namespace TB

/-- The exception classes which the modelled code raises.
Models `timeboard/exceptions.py` 1-24 (`OutOfBoundsError(LookupError)`,
`PartialOutOfBoundsError(ValueError)`, `VoidIntervalError(ValueError)`,
`UnacceptablePeriodError(ValueError)`) and the built-in exceptions used by the code.
Simplification: exception messages are dropped. -/
inductive Err where
  | outOfBounds
  | partialOutOfBounds
  | voidInterval
  | unacceptablePeriod
  | keyError
  | valueError
  | typeError
  | indexError
  | runtimeError
  | assertionError
  | zeroDivision
  | attributeError
  deriving DecidableEq, Repr

/-- Equality of outcomes is decidable (used by the concrete examples only). -/
instance {ε α : Type} [DecidableEq ε] [DecidableEq α] : DecidableEq (Except ε α)
  | .error a, .error b => if h : a = b then isTrue (by rw [h]) else isFalse (by simpa using h)
  | .ok a, .ok b => if h : a = b then isTrue (by rw [h]) else isFalse (by simpa using h)
  | .error _, .ok _ => isFalse (by simp)
  | .ok _, .error _ => isFalse (by simp)

/- Points in time: nanoseconds since 1970-01-01 00:00:00 (the value of a `pandas.Timestamp`).
Simplification: unbounded (pandas is limited to 64 bits).  A mere notation, for readability. -/
notation "Time" => Int

/-- Python's `xs[i]` for an integer `i` (negative counts from the end); `none` is `IndexError`.
Used wherever the code indexes a list / array / Series.iloc with a possibly negative integer. -/
def pyGet? {α : Type} (xs : List α) (i : Int) : Option α :=
  if 0 ≤ i then xs[i.toNat]?
  else if 0 ≤ i + xs.length then xs[(i + xs.length).toNat]?
  else none

/-- `np.searchsorted(xs, v, side='left')` for an ascending `xs`: the number of leading
elements smaller than `v`. -/
def ssLeft (xs : List Int) (v : Int) : Int := ((xs.takeWhile (fun x => x < v)).length : Int)

/-- `np.searchsorted(xs, v, side='right')` for an ascending `xs`: the number of leading
elements not greater than `v`. -/
def ssRight (xs : List Int) (v : Int) : Int := ((xs.takeWhile (fun x => x ≤ v)).length : Int)

/-- Insertion into an ascending duplicate-free list. -/
def insertUniq (x : Int) : List Int → List Int
  | [] => [x]
  | y :: ys => if x < y then x :: y :: ys else if x = y then y :: ys else y :: insertUniq x ys

/-- `sorted(list(set(xs)))`. -/
def sortedSet (xs : List Int) : List Int := xs.foldr insertUniq []

/-- Insertion into an ascending list (duplicates are kept). -/
def insertSorted (x : Int) : List Int → List Int
  | [] => [x]
  | y :: ys => if x ≤ y then x :: y :: ys else y :: insertSorted x ys

/-- `sorted(xs)` / `DatetimeIndex.sort_values()`. -/
def sortList (xs : List Int) : List Int := xs.foldr insertSorted []

/-- `range(a, b)` for integers: `a, a+1, ..., b-1`. -/
def intRange (a b : Int) : List Int := (List.range (b - a).toNat).map (fun (k : Nat) => a + (k : Int))

end TB
