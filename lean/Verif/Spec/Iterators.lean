import Verif.Spec.Reading
import Verif.Model.Iterators
/-!
# A layout with iterators read as a list

As `Spec/Reading.lean`; beside the RememberingPatterns there are iterators which come to an end.
-/
namespace TB
variable {L : Type}

/-- What the user knows of an iterator of labels: a RememberingPattern (or an `itertools.cycle`) of these labels which has handed out `n` of
them, or an iterator which hands out these labels and then ends. -/
inductive Supply (L : Type) where
  | endless (xs : List L) (n : Nat)
  | once (xs : List L)

/-- The labels which are laid out when the iterator is used next, as a list which is repeated, ... -/
def Supply.labels : Supply L → List L
  | .endless xs _ => xs
  | .once xs => xs

/-- ... and the place in it to begin at. -/
def Supply.place : Supply L → Nat
  | .endless _ n => n
  | .once _ => 0

/-- `n` labels are laid out.  Those taken from an iterator which ends are gone. -/
def Supply.draw (n : Nat) : Supply L → Supply L
  | .endless xs k => .endless xs (k + n)
  | .once xs => .once (xs.drop n)

/-- What the user knows of all iterators. -/
abbrev Supplies (L : Type) := Nat → Supply L

def Supplies.draw (m : Supplies L) (id n : Nat) : Supplies L := fun j => if j = id then (m id).draw n else m j

/-- The object is as the user knows it. -/
def Cycle.Supplies (c : Cycle L) : Supply L → Prop
  | .endless xs n => c.Shows (xs, n)
  | .once xs => c = Cycle.once xs

def Heap.Supplies (heap : Heap L) (m : TB.Supplies L) : Prop := ∀ id, (heap id).Supplies (m id)

mutual
/-- The pieces of a span under a layout. -/
def Layout.readIt (f : Frame) (dl : L) : Layout L → ReaderOf (Supplies L) L
  | .label l => fun s m => .ok ([{ first := s.first, last := s.last, label := l }], m)
  | .pattern (.list xs) => fun s m =>
    if s.skipLeft < 0 then .error .outOfBounds else .ok (unitPieces dl xs s.skipLeft.toNat s, m)
  | .pattern (.rp id) => fun s m =>
    if s.skipLeft < 0 then .error .outOfBounds
    else .ok (unitPieces dl (m id).labels ((m id).place + s.skipLeft.toNat) s,
      m.draw id (s.skipLeft.toNat + (s.last + 1 - s.first).toNat))
  | .organizer cut elems => fun s m => match f.cut s cut with
    | .error e => .error e
    | .ok ss => if elems.isEmpty then .ok (unitPieces dl [] 0 s, m) else readInTurns (Layout.readItAll f dl elems) 0 ss m
  | .organizerRP cut id => fun s m => match f.cut s cut with
    | .error e => .error e
    | .ok ss => if (m id).labels.isEmpty then .ok (unitPieces dl [] 0 s, m)
      else .ok (spanPieces dl (m id).labels (m id).place ss, m.draw id ss.length)

def Layout.readItAll (f : Frame) (dl : L) : List (Layout L) → List (ReaderOf (Supplies L) L)
  | [] => []
  | l :: ls => Layout.readIt f dl l :: Layout.readItAll f dl ls
end

/-- The workshifts of a timeboard with the given layout, and the iterators afterwards. -/
def Args.readLayoutIt (a : Args L) (l : Layout L) (m : Supplies L) : Except Err (Frame × List (Piece L) × Supplies L) :=
  if a.worktimeSource ≠ "duration" ∧ a.worktimeSource ≠ "labels" then .error .valueError
  else match a.frame with
    | .error e => .error e
    | .ok f => match Layout.readIt f a.defaultLabel l { first := 0, last := (f.n : Int) - 1 } m with
      | .error e => .error e
      | .ok (ps, m') => match amendPieces f a.amendments ps with
        | .error e => .error e
        | .ok qs => .ok (f, qs, m')

/-- The workshifts of a timeboard with the given arguments.  A single label or an iterator is not a layout. -/
def Args.readIt (a : Args L) (m : Supplies L) : Except Err (Frame × List (Piece L) × Supplies L) :=
  match a.layout with
  | .label _ => .error .typeError
  | .pattern (.rp _) => .error .typeError
  | l => a.readLayoutIt l m

/-- The layout in which no iterators take part: a workshift for each piece, with the label of the piece. -/
def plainLayout (f : Frame) (ps : List (Piece L)) : Layout L :=
  .organizer (.marks (ps.map (fun p => f.unitStart p.first))) (ps.map (fun p => .label p.label))

end TB
