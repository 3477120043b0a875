import Verif.Model.Sources
import Verif.Spec.Attempt
import Verif.Spec.Layout
import Verif.Spec.Repr
/-! RememberingPatterns made of iterators and of each other (C126). -/
namespace TB
variable {L : Type}

/-- Labels taken from objects by `next`, one after another; `none` is StopIteration. -/
def Feeds.draws : List Nat → Feeds L → List (Option L) × Feeds L
  | [], o => ([], o)
  | i :: is, o => match o.next i with
    | none => (none :: (Feeds.draws is o).1, (Feeds.draws is o).2)
    | some (l, o') => (some l :: (Feeds.draws is o').1, (Feeds.draws is o').2)

/-- Steps which only ask an object about its labels. -/
def ObjStep.Looks : ObjStep L → Prop
  | .item .. => True
  | .length _ => True
  | .truth _ => True
  | _ => False

/-- The step draws from the object, or makes a RememberingPattern of it. -/
def ObjStep.Uses (id : Nat) : ObjStep L → Prop
  | .remember src => src = id
  | .draw i => i = id
  | .build a => a.layout.UsesRP id
  | _ => False

/-- The step with other objects in place of the objects drawn from. -/
def ObjStep.rename (ρ : Nat → Nat) : ObjStep L → ObjStep L
  | .remember src => .remember (ρ src)
  | .draw i => .draw (ρ i)
  | .build a => .build { a with layout := a.layout.rename ρ }
  | s => s

/-- What the drawer `i` has got of the labels `xs`, when those named in `ds` took one label each in this order. -/
def shareOf (xs : List L) (ds : List Nat) (i : Nat) : List L := ((ds.zip xs).filter (fun p => p.1 == i)).map Prod.snd

/-- What the drawer number `j` among `ds` gets from an iterator with the labels `xs`, if all draw from it, the iterator's own `next` (`n`)
or RememberingPatterns made of it: the labels in turn while there are any; then RememberingPatterns repeat what each has got. -/
def sharedAnswer (n : Nat) (xs : List L) (ds : List Nat) (j i : Nat) : Option L :=
  if j < xs.length then xs[j]?
  else if i = n then none
  else cyclic (shareOf xs ds i) (((ds.take j).drop xs.length).count i)

end TB
