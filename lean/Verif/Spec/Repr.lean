import Verif.Model.Repr
/-!
# The meaning of the code printed for layouts and timeboards

What a Python interpreter does with the code: it executes the lines one by one, each assigning a new object to a
name; a name which has not been assigned is an error, and so is a rule unknown to `Marker`.  Every execution of
`RememberingPattern(…)` creates a new object with its own state.
-/
namespace TB

/-- A value of a variable. -/
inductive Value (L : Type) where
  | marker (m : Marker)
  | layout (l : Layout L)

/-- The variables, the states of RememberingPatterns, and the identity of the next one to be created. -/
structure Store (L : Type) where
  vars : Name → Option (Value L)
  heap : Heap L
  next : Nat

/-- `Marker(each, at, how)`. -/
def MarkerCode.eval (c : MarkerCode) : Option Marker :=
  match c.atHow with
  | none => some { each := c.each, ats := [] }
  | some (ats, how) => (HowName.ofText how).map (fun n => { each := c.each, ats := ats.map n.fn })

/-- The value of `marker=…` or `marks=…`. -/
def CutArg.eval {L : Type} (s : Store L) : CutArg → Option Cut
  | .name n => match s.vars n with
    | some (.marker m) => some (.marker m)
    | _ => none
  | .marker c => c.eval.map .marker
  | .marks ts => some (.marks ts)

/-- The value of an element of a structure. -/
def ElemArg.eval {L : Type} (s : Store L) : ElemArg L → Option (Layout L)
  | .name n => match s.vars n with
    | some (.layout l) => some l
    | _ => none
  | .list xs => some (.pattern (.list xs))
  | .label l => some (.label l)

/-- The values of the elements of a structure. -/
def ElemArg.evalAll {L : Type} (s : Store L) : List (ElemArg L) → Option (List (Layout L))
  | [] => some []
  | e :: es => match e.eval s with
    | none => none
    | some l => match ElemArg.evalAll s es with
      | none => none
      | some ls => some (l :: ls)

/-- The value of an expression and the store after its evaluation. -/
def Expr.eval {L : Type} (s : Store L) : Expr L → Option (Value L × Store L)
  | .marker c => c.eval.map (fun m => (.marker m, s))
  | .rp labels => some (.layout (.pattern (.rp s.next)),
      { s with heap := s.heap.set s.next (Cycle.start labels), next := s.next + 1 })
  | .organizer c es => match c.eval s with
    | none => none
    | some cut => match ElemArg.evalAll s es with
      | none => none
      | some ls => some (.layout (.organizer cut ls), s)
  | .organizerRP c n => match c.eval s with
    | none => none
    | some cut => match s.vars n with
      | some (.layout (.pattern (.rp i))) => some (.layout (.organizerRP cut i), s)
      | _ => none

/-- `name = value`. -/
def Store.assign {L : Type} (s : Store L) (n : Name) (v : Value L) : Store L :=
  { s with vars := fun m => if m = n then some v else s.vars m }

/-- Execute the lines. -/
def execute {L : Type} : Lines L → Store L → Option (Store L)
  | [], s => some s
  | (n, e) :: ls, s => match e.eval s with
    | none => none
    | some (v, s') => execute ls (s'.assign n v)

/-- Execute the lines, then evaluate the final expression. -/
def evalRepr {L : Type} (p : Lines L × Expr L) (s : Store L) : Option (Value L × Store L) :=
  match execute p.1 s with
  | none => none
  | some s' => p.2.eval s'

/-- The arguments of `Timeboard(freq, start, end, layout=…)`: all other parameters have the default values;
`noLabel` stands for the label None and `truth` for `bool`. -/
def plainArgs {L : Type} (freq : Freq) (start stop : Time) (layout : Layout L) (noLabel : L) (truth : L → Bool) : Args L :=
  { freq := freq, start := start, stop := stop, layout := layout, selector := truth, defaultLabel := noLabel }

/-- Execute the code printed for a timeboard; `none` if the code fails before the constructor of the timeboard. -/
def TimeboardCode.eval {L : Type} (c : TimeboardCode L) (s : Store L) (noLabel : L) (truth : L → Bool) :
    Option (Except Err (Timeboard L × Heap L)) :=
  match execute c.lines s with
  | none => none
  | some s' =>
    match c.layout with
    | .name n => match s'.vars n with
      | some (.layout l) => some (Timeboard.new (plainArgs c.freq c.start c.stop l noLabel truth) s'.heap)
      | _ => none
    | .expr e => match e.eval s' with
      | some (.layout l, s'') => some (Timeboard.new (plainArgs c.freq c.start c.stop l noLabel truth) s''.heap)
      | _ => none

/-- Change the identities of RememberingPatterns. -/
def Pattern.rename {L : Type} (ρ : Nat → Nat) : Pattern L → Pattern L
  | .list xs => .list xs
  | .rp i => .rp (ρ i)

mutual
/-- Change the identities of RememberingPatterns. -/
def Layout.rename {L : Type} (ρ : Nat → Nat) : Layout L → Layout L
  | .organizer c es => .organizer c (Layout.renameAll ρ es)
  | .organizerRP c i => .organizerRP c (ρ i)
  | .pattern p => .pattern (p.rename ρ)
  | .label l => .label l

/-- Change the identities of RememberingPatterns in the elements of a structure. -/
def Layout.renameAll {L : Type} (ρ : Nat → Nat) : List (Layout L) → List (Layout L)
  | [] => []
  | l :: ls => Layout.rename ρ l :: Layout.renameAll ρ ls
end

/-- A thing which has an identity. -/
inductive Thing (L : Type) where
  | marker (m : MarkerObj)
  | obj (o : Obj L)

/-- The marker among the things. -/
def CutObj.named {L : Type} : CutObj → List (Name × Thing L)
  | .marker i m => [(.mrk i, .marker m)]
  | .marks _ => []

mutual
/-- All things with an identity of which the object consists, itself included. -/
def Obj.named {L : Type} : Obj L → List (Name × Thing L)
  | .organizer i c es => (.org i, .obj (.organizer i c es)) :: (c.named ++ Obj.namedAll es)
  | .organizerRP i c r ls => (.org i, .obj (.organizerRP i c r ls)) :: (c.named ++ [(.rp r, .obj (.rp r ls))])
  | .rp i ls => [(.rp i, .obj (.rp i ls))]
  | .list _ => []
  | .label _ => []

/-- All things with an identity of which the elements consist. -/
def Obj.namedAll {L : Type} : List (Obj L) → List (Name × Thing L)
  | [] => []
  | e :: es => Obj.named e ++ Obj.namedAll es
end

/-- Identities are identities: things with the same identity are the same. -/
def Obj.Consistent {L : Type} (o : Obj L) : Prop :=
  ∀ n x y, (n, x) ∈ o.named → (n, y) ∈ o.named → x = y

/-- The marker has no `at`, or the rule is given by its name and not by a function. -/
def MarkerObj.ByName (m : MarkerObj) : Prop := m.ats = [] ∨ ∃ n, m.how = .named n

/-- All markers use built-in rules. -/
def Obj.ByName {L : Type} (o : Obj L) : Prop := ∀ n m, (n, Thing.marker m) ∈ o.named → m.ByName

/-- The RememberingPatterns of the object with their labels. -/
def Obj.HasRP {L : Type} (o : Obj L) (i : Nat) (labels : List L) : Prop := (Name.rp i, Thing.obj (Obj.rp i labels)) ∈ o.named

/-- The object is an Organizer. -/
def Obj.IsOrganizer {L : Type} : Obj L → Prop
  | .organizer .. => True
  | .organizerRP .. => True
  | _ => False

/-- The RememberingPatterns of the object have not been used yet. -/
def Obj.Unused {L : Type} (o : Obj L) (h : Heap L) : Prop := ∀ i labels, o.HasRP i labels → h i = Cycle.start labels

/-- The layout is a copy of that of the object: it only differs in the identities of RememberingPatterns, which are all
new (`ρ` gives the new ones); different ones are different and the same ones are the same; none of them has been used.
Patterns which existed before are not touched. -/
structure IsCopy {L : Type} (o : Obj L) (s : Store L) (ρ : Nat → Nat) (l : Layout L) (heap : Heap L) : Prop where
  same : l = o.layout.rename ρ
  new : ∀ i labels, o.HasRP i labels → s.next ≤ ρ i
  distinct : ∀ i labels j labels', o.HasRP i labels → o.HasRP j labels' → ρ i = ρ j → i = j
  unused : ∀ i labels, o.HasRP i labels → heap (ρ i) = Cycle.start labels
  others : ∀ j, j < s.next → heap j = s.heap j

end TB
