import Verif.Model.Attempt
/-!
# RememberingPatterns in the hands of the user

`RememberingPattern` (core.py 1661-1717) is a public class: a program may make such objects, take labels from them by itself, ask
them about their labels, and use them in layouts of timeboards, in any order.
-/
namespace TB

/-- What a program does with RememberingPatterns; they are numbered in the order in which they were made. -/
inductive RPStep (L : Type) where
  /-- `RememberingPattern(labels)`: core.py 1690-1692 -/
  | create (labels : List L)
  /-- `next(rp)`, `rp.next()`: core.py 1697-1701 -/
  | draw (id : Nat)
  /-- `rp[i]`: core.py 1706-1707 -/
  | item (id : Nat) (i : Int)
  /-- `rp.length`: core.py 1709-1711 -/
  | length (id : Nat)
  /-- `bool(rp)`: core.py 1713-1717 -/
  | truth (id : Nat)
  /-- `Timeboard(...)`, with RememberingPatterns in the layout or without: timeboard.py 164-226 -/
  | build (a : Args L)

/-- What the program gets. -/
inductive RPAnswer (L : Type) where
  | object (id : Nat)
  | label (l : L)
  | number (n : Int)
  | flag (b : Bool)
  | timeboard (tb : Timeboard L)
  | raised (e : Err)
  | stopIteration

/-- The RememberingPatterns made so far: `_labels` (core.py 1691) of each, and `_label_generator` (core.py 1692) of each.
Simplification: `labels` are a list which nobody changes (`cycle` would go on with the labels it has seen). -/
structure RPObjects (L : Type) where
  made : List (List L)
  heap : Heap L

/-- One step: core.py 1690-1717, timeboard.py 164-226. An exception does not end the program. Simplification: a program refers to
RememberingPatterns which exist only (here any other has no labels). -/
def RPObjects.step {L : Type} (o : RPObjects L) : RPStep L → RPObjects L × RPAnswer L
  | .create labels => ({ made := o.made ++ [labels], heap := o.heap.set o.made.length (Cycle.start labels) }, .object o.made.length)
  | .draw id => match (o.heap id).next with
    | none => (o, .stopIteration)
    | some (l, c) => ({ o with heap := o.heap.set id c }, .label l)
  | .item id i => match pyGet? (o.made[id]?.getD []) i with
    | none => (o, .raised .indexError)
    | some l => (o, .label l)
  | .length id => (o, .number ((o.made[id]?.getD []).length))
  | .truth id => (o, .flag (decide (0 < (o.made[id]?.getD []).length)))
  | .build a => match Timeboard.attempt a o.heap with
    | (heap, .error e) => ({ o with heap := heap }, .raised e)
    | (heap, .ok tb) => ({ o with heap := heap }, .timeboard tb)

/-- A program: the objects afterwards and all answers. -/
def RPObjects.run {L : Type} : List (RPStep L) → RPObjects L → RPObjects L × List (RPAnswer L)
  | [], o => (o, [])
  | s :: ss, o =>
    let (o', x) := o.step s
    let (o'', xs) := RPObjects.run ss o'
    (o'', x :: xs)

end TB
