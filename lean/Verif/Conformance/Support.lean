import Verif.Model.Columns
import Verif.Model.Calendars
import Verif.Model.Template
import Verif.Model.When
import Verif.Model.Iteration
/-!
# Vocabulary of the transcribed test-suite

The modules beside this one hold the unit tests of the project (`/repo/timeboard/tests`), transcribed statement by
statement into computations of the model by `tools/conformance.py`.  They check that the model behaves like the code does
according to its own tests; they prove none of the properties.
-/
namespace TB.Conf

/-- The labels used in the tests: `None`, numbers, strings, and objects of some other class. -/
inductive V where
  | none
  | num (q : Rat)
  | str (s : String)
  | obj (n : Nat)
  deriving DecidableEq

/-- An integer label. -/
def V.i (n : Int) : V := .num n

/-- `bool(x)`. -/
def V.truthy : V → Bool
  | .none => false
  | .num q => decide (q ≠ 0)
  | .str s => decide (s ≠ "")
  | .obj _ => true

/-- `x > n`, `x < n`, for numbers. -/
def V.gt (x : V) (n : Rat) : Bool := match x with
  | .num q => decide (q > n)
  | _ => false

def V.lt (x : V) (n : Rat) : Bool := match x with
  | .num q => decide (q < n)
  | _ => false

/-- Labels which can be added up. -/
def V.num? : V → Option Rat
  | .num q => some q
  | _ => Option.none

/-- A test: it may raise an exception of the modelled code (`inl`) or fail at a line of the test file (`inr`). -/
abbrev C := Except (Sum Err Nat)

instance : MonadLift (Except Err) C where
  monadLift x := match x with
    | .ok a => .ok a
    | .error e => .error (.inl e)

/-- `assert`. -/
def check (line : Nat) (b : Bool) : C Unit := if b then .ok () else .error (.inr line)

/-- `with pytest.raises(E)`: the exception is raised and is an instance of `E`. -/
def raises (line : Nat) (isInstance : List Err) (m : C Unit) : C Unit := match m with
  | .error (.inl e) => if e ∈ isInstance then .ok () else .error (.inr line)
  | .error (.inr n) => .error (.inr n)
  | .ok _ => .error (.inr line)

/-- The test passes. -/
def passes (m : C Unit) : Bool := match m with
  | .ok _ => true
  | .error _ => false

/-- The result of calling a timeboard is a workshift / an interval. -/
def asWs {L : Type} : CallResult L → C (Workshift L)
  | .workshift w => .ok w
  | .interval _ => .error (.inr 0)

def asIvl {L : Type} : CallResult L → C (Interval L)
  | .interval i => .ok i
  | .workshift _ => .error (.inr 0)

/-- `xs[i]`. -/
def item {α : Type} (xs : List α) (i : Int) : C α := match pyGet? xs i with
  | some a => .ok a
  | none => .error (.inl .indexError)

/-- `d[k]`. -/
def key {α : Type} (d : List (String × α)) (k : String) : C α := match d.find? (fun p => p.1 == k) with
  | some p => .ok p.2
  | none => .error (.inl .keyError)

/-- A point in time which is not NaT. -/
def notNaT : Option Int → C Int
  | some t => .ok t
  | none => .error (.inr 0)

/-- A point in time. -/
def ts (y m d : Int) (h mi s : Int := 0) : Int := date y m d + h * nsHour + mi * nsMin + s * nsSec

/-- `frame[i]`. -/
def framePeriod (f : Frame) (i : Int) : C Period := do
  let o ← item f.ords i
  return ⟨f.freq, o⟩

/-- Equality of periods: 'W' and 'W-SUN' are the same frequency. -/
def samePeriod (p q : Period) : Bool :=
  p.ord == q.ord && decide (p.freq.base = q.freq.base) && p.freq.mult == q.freq.mult

/-- Equality of dictionaries. -/
def sameDict {α : Type} [DecidableEq α] (d e : List (Int × α)) : Bool :=
  d.length == e.length && d.all (fun x => e.contains x) && e.all (fun x => d.contains x)

/-- No RememberingPattern has been created yet. -/
def noHeap {L : Type} : Heap L := fun _ => Cycle.start []

/-- The temporary arrays of a timeline (core.py 621-623). -/
def tempArrays {L : Type} (data : L) : TLState L := { labels := fun _ => data, mask := fun _ => true, heap := noHeap }

/-- `_ws_labels`. -/
def tempLabels {L : Type} (tl : Timeline L) (st : TLState L) : List L :=
  (List.range tl.frame.n).map (fun (i : Nat) => st.labels i)

end TB.Conf
