import Verif.Model.LayoutValue
/-! Specification of values given as layouts. -/
namespace TB
variable {L : Type}

/-- The value is iterable and these are the labels which iterating over it yields: elements of a list or a set, keys of a dictionary. -/
inductive LayoutValue.Yields (obj : Layout L → L) : LayoutValue L → List L → Prop
  | sequence {xs : List (LayoutItem L)} : Yields obj (.sequence xs) (xs.map (LayoutItem.label obj))
  | unordered {xs : List (LayoutItem L)} : Yields obj (.unordered xs) (xs.map (LayoutItem.label obj))
  | mapping {es : List (LayoutItem L × Bool × LayoutItem L)} : Yields obj (.mapping es) (es.map (fun e => e.1.label obj))

/-- A set with one element, or a dictionary with one key which is not 0. -/
inductive LayoutValue.Lonely : LayoutValue L → Err → Prop
  | unordered {x : LayoutItem L} : Lonely (.unordered [x]) .typeError
  | mapping {k v : LayoutItem L} : Lonely (.mapping [(k, false, v)]) .keyError

end TB
