import Verif.Model.When
import Verif.Model.Calendars
import Verif.Model.Timeboard
/-!
# The printed form of layouts and timeboards

Models `Organizer._repr_builder`, `Organizer.__repr__`, `Marker.__repr__`, `RememberingPattern.__repr__` of
`timeboard/core.py` and the text prepared for `Timeboard.__repr__` in `timeboard/timeboard.py`.

The text is Python code.  It is modelled as a syntax tree instead of a string.  Simplification: the texts of
frequencies, times, labels and dictionaries of keyword arguments (which come from `repr` of these values) are
represented by the values themselves.

In `Model/Layout.lean` only a RememberingPattern has an identity as this is the only object which changes; here organizers
and markers have identities, too, because names are made of them.
-/
namespace TB

/-- The keys of `how_functions`: core.py 1630-1635. -/
inductive HowName where
  | fromStartOfEach | nthWeekdayOfMonth | fromEasterWestern | fromEasterOrthodox
  deriving DecidableEq, Repr

/-- The key as a string: core.py 1630-1635. -/
def HowName.text : HowName → String
  | .fromStartOfEach => "from_start_of_each"
  | .nthWeekdayOfMonth => "nth_weekday_of_month"
  | .fromEasterWestern => "from_easter_western"
  | .fromEasterOrthodox => "from_easter_orthodox"

/-- `how_functions[how]`; `none` is KeyError: core.py 1637. -/
def HowName.ofText (s : String) : Option HowName :=
  if s = "from_start_of_each" then some .fromStartOfEach
  else if s = "nth_weekday_of_month" then some .nthWeekdayOfMonth
  else if s = "from_easter_western" then some .fromEasterWestern
  else if s = "from_easter_orthodox" then some .fromEasterOrthodox
  else none

/-- A dictionary of keyword arguments, an element of `at` of a Marker.
Simplification: dictionaries suitable for at least one of the functions. -/
inductive Kwargs where
  | offset (o : Option Offset)
  | weekday (month week weekday : Int) (shift : Option Int)
  | easter (shift : Option Int) (o : Option Offset)
  deriving DecidableEq

/-- A value of `Marker.how`, applied to keyword arguments: when.py 10, 63, 221-225. -/
abbrev HowFn := Kwargs → Frame → Freq → Except Err (List Time)

/-- The functions of the dictionary: core.py 1630-1635.  Keyword arguments which are not for the function raise TypeError. -/
def HowName.fn : HowName → HowFn
  | .fromStartOfEach, .offset o => TB.fromStartOfEach o
  | .nthWeekdayOfMonth, .weekday m w d s => TB.nthWeekdayOfMonth m w d s
  | .fromEasterWestern, .easter s o => fromEaster false s o
  | .fromEasterOrthodox, .easter s o => fromEaster true s o
  | _, _ => fun _ _ => .error .typeError

/-- Parameter `how` of a Marker: a key or a function (whose `str` is `text`): core.py 1636-1641. -/
inductive How where
  | named (n : HowName)
  | function (text : String) (f : HowFn)

/-- `_how_str`: core.py 1638, 1641. -/
def How.text : How → String
  | .named n => n.text
  | .function t _ => t

/-- `_how`: core.py 1637, 1640. -/
def How.fn : How → HowFn
  | .named n => n.fn
  | .function _ f => f

/-- The attributes of a Marker: core.py 1627-1641. `ats = []` is an empty or absent `at`. -/
structure MarkerObj where
  each : Freq
  ats : List Kwargs
  how : How

/-- The marker as it is used for partitioning (`Model/Frame.lean`). -/
def MarkerObj.marker (m : MarkerObj) : Marker := { each := m.each, ats := m.ats.map m.how.fn }

/-- Attributes `marker` and `marks` of an Organizer: core.py 1344-1353. -/
inductive CutObj where
  | marker (id : Nat) (m : MarkerObj)
  | marks (ts : List Time)

/-- Organizers, RememberingPatterns, ordinary patterns and labels, as objects: `id` is `id(object)`. -/
inductive Obj (L : Type) where
  | organizer (id : Nat) (cut : CutObj) (elems : List (Obj L))
  | organizerRP (id : Nat) (cut : CutObj) (rpId : Nat) (labels : List L)
  | rp (id : Nat) (labels : List L)
  | list (xs : List L)
  | label (l : L)

/-- The cut as it is used for organizing (`Model/Layout.lean`). -/
def CutObj.cut : CutObj → Cut
  | .marker _ m => .marker m.marker
  | .marks ts => .marks ts

mutual
/-- The layout as it is used for organizing (`Model/Layout.lean`). -/
def Obj.layout {L : Type} : Obj L → Layout L
  | .organizer _ c es => .organizer c.cut (Obj.layouts es)
  | .organizerRP _ c r _ => .organizerRP c.cut r
  | .rp i _ => .pattern (.rp i)
  | .list xs => .pattern (.list xs)
  | .label l => .label l

/-- The elements of a structure. -/
def Obj.layouts {L : Type} : List (Obj L) → List (Layout L)
  | [] => []
  | e :: es => Obj.layout e :: Obj.layouts es
end

/-- The names `org_{id}`, `mrk_{id}`, `rp_{id}`: core.py 1391, 1397, 1412, 1422, 1427. -/
inductive Name where
  | org (id : Nat)
  | mrk (id : Nat)
  | rp (id : Nat)
  deriving DecidableEq

/-- `Marker(each=…)` or `Marker(each=…, at=…, how=…)`: core.py 1654-1658. -/
structure MarkerCode where
  each : Freq
  atHow : Option (List Kwargs × String)

/-- The first argument of `Organizer(…)`: core.py 1395-1404. -/
inductive CutArg where
  | name (n : Name)
  | marker (c : MarkerCode)
  | marks (ts : List Time)

/-- An element of the list after `structure=`: core.py 1420-1433. -/
inductive ElemArg (L : Type) where
  | name (n : Name)
  | list (xs : List L)
  | label (l : L)

/-- The right-hand side of a line of the code. -/
inductive Expr (L : Type) where
  | marker (c : MarkerCode)
  | rp (labels : List L)
  | organizer (c : CutArg) (elems : List (ElemArg L))
  | organizerRP (c : CutArg) (n : Name)

/-- `repr_objects`, an OrderedDict of lines `name = expression`. -/
abbrev Lines (L : Type) := Dict Name (Expr L)

/-- `Marker.__repr__`: core.py 1654-1658. -/
def MarkerObj.code (m : MarkerObj) : MarkerCode :=
  { each := m.each, atHow := if m.ats.isEmpty then none else some (m.ats, m.how.text) }

/-- `arg_m`: core.py 1395-1404. -/
def CutObj.arg : CutObj → CutArg
  | .marker i m => if m.ats.isEmpty then .marker m.code else .name (.mrk i)
  | .marks ts => .marks ts

/-- The line for the marker: core.py 1395-1404. -/
def CutObj.lines {L : Type} (c : CutObj) (d : Lines L) : Lines L :=
  match c with
  | .marker i m => if m.ats.isEmpty then d else if d.has (.mrk i) then d else d.set (.mrk i) (.marker m.code)
  | .marks _ => d

/-- An element of `elem_reprs`: core.py 1420-1433. -/
def Obj.arg {L : Type} : Obj L → ElemArg L
  | .organizer i _ _ => .name (.org i)
  | .organizerRP i _ _ _ => .name (.org i)
  | .rp i _ => .name (.rp i)
  | .list xs => .list xs
  | .label l => .label l

/-- The line for a RememberingPattern: core.py 1411-1414, 1426-1430. -/
def rpLines {L : Type} (i : Nat) (labels : List L) (d : Lines L) : Lines L :=
  if d.has (.rp i) then d else d.set (.rp i) (.rp labels)

mutual
/-- `Organizer._repr_builder`: core.py 1368-1439; for other elements of a structure, the lines added for them:
core.py 1420-1433. -/
def Obj.lines {L : Type} : Obj L → Lines L → Lines L
  | .organizer i c es, d =>
    if d.has (.org i) then d
    else (Obj.linesAll es (c.lines d)).set (.org i) (.organizer c.arg (es.map Obj.arg))
  | .organizerRP i c r labels, d =>
    if d.has (.org i) then d
    else (rpLines r labels (c.lines d)).set (.org i) (.organizerRP c.arg (.rp r))
  | .rp i labels, d => rpLines i labels d
  | .list _, d => d
  | .label _, d => d

/-- The loop over the elements of a structure: core.py 1420-1433. -/
def Obj.linesAll {L : Type} : List (Obj L) → Lines L → Lines L
  | [], d => d
  | e :: es, d => Obj.linesAll es (Obj.lines e d)
end

/-- `Organizer.__repr__`: core.py 1441-1447: the lines except for the last one, and the expression of the last one
(`popitem` of an OrderedDict removes the last item; there always is one). -/
def Obj.repr {L : Type} (o : Obj L) : Option (Lines L × Expr L) :=
  match (o.lines []).getLast? with
  | none => none
  | some x => some ((o.lines []).dropLast, x.2)

/-- The argument after `layout=` in the text of a timeboard: timeboard.py 217-226. -/
inductive LayoutArg (L : Type) where
  | expr (e : Expr L)
  | name (n : Name)

/-- The text of a timeboard: timeboard.py 225-226. -/
structure TimeboardCode (L : Type) where
  lines : Lines L
  freq : Freq
  start : Time
  stop : Time
  layout : LayoutArg L

/-- timeboard.py 216-226.  An iterable layout has been replaced by `Organizer(marks=[], structure=[layout])`
(timeboard.py 177-180), the printed form of which is a single expression.  Layouts which are not accepted by the
constructor have no printed form. -/
def Timeboard.code {L : Type} (freq : Freq) (start stop : Time) : Obj L → Option (TimeboardCode L)
  | .organizer i c es => some
    { lines := (Obj.organizer i c es).lines [], freq := freq, start := start, stop := stop, layout := .name (.org i) }
  | .organizerRP i c r ls => some
    { lines := (Obj.organizerRP i c r ls).lines [], freq := freq, start := start, stop := stop, layout := .name (.org i) }
  | .list xs => some
    { lines := [], freq := freq, start := start, stop := stop, layout := .expr (.organizer (.marks []) [.list xs]) }
  | _ => none

end TB
