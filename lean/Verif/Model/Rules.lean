import Verif.Model.Repr
/-!
# Making a Marker

Models the constructor of `Marker` (core.py 1627-1641) with `how` given as a string.
-/
namespace TB

/-- `Marker(each, at, how)` with a string as `how`: core.py 1627-1638. A string which is not a key of `how_functions` raises
KeyError.  Simplification: `each` is a frequency (an invalid one is noticed by pandas when the marker is used); `ats = []` is an
empty or absent `at`. -/
def MarkerObj.create (each : Freq) (ats : List Kwargs) (how : String := "from_start_of_each") : Except Err MarkerObj :=
  match HowName.ofText how with
  | some n => .ok { each, ats, how := .named n }
  | none => .error .keyError

/-- `Marker(each, at, how)` with a function (whose `str` is `text`) as `how`: core.py 1639-1641. -/
def MarkerObj.createWith (each : Freq) (ats : List Kwargs) (text : String) (f : HowFn) : MarkerObj :=
  { each, ats, how := .function text f }

end TB
