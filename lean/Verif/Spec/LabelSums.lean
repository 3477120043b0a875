import Verif.Model.LabelSums
/-!
# What labels are worth
-/
namespace TB

/-- What a label counts for when the labels of an interval are added up: missing ones count for nothing. -/
def Val.worth : Val → Option Rat
  | .number q => some q
  | .nothing => some 0
  | .nan => some 0
  | .text _ => none
  | .thing => none

/-- The label is neither None nor NaN. -/
def Val.Present (v : Val) : Prop := v ≠ .nothing ∧ v ≠ .nan

/-- The string a label is. -/
def Val.words : Val → Option String
  | .text s => some s
  | _ => none

/-- The total of labels: numbers are added, strings put one after the other, nothing else has a total (but a single thing
is its own). -/
def totalOf (vs : List Val) : Except Err Val :=
  if vs.all (fun v => v.worth.isSome) then .ok (.number (vs.filterMap Val.worth).sum)
  else if vs.all (fun v => v.words.isSome) then .ok (.text (String.join (vs.filterMap Val.words)))
  else if vs = [.thing] then .ok .thing
  else .error .typeError

end TB
