import Verif.Spec.Layout
import Verif.Spec.Dividing
/-!
# A layout read as a list

What a timeboard consists of, by a program which is much simpler than the code: a layout applied to a span gives a list of pieces,
one after the other; the lists of the spans of an organizer are put together.  There are no arrays to be overwritten, no masks, no
iterators: a RememberingPattern is a list of labels and the number of labels handed out.
-/
namespace TB
variable {L : Type}

/-- What the user knows of RememberingPatterns: the labels of each one and the number of labels it has handed out. -/
abbrev Memory (L : Type) := Nat → List L × Nat

/-- `n` labels more are drawn from a RememberingPattern. -/
def Memory.draw (m : Memory L) (id n : Nat) : Memory L := fun j => if j = id then ((m id).1, (m id).2 + n) else m j

/-- The object is a RememberingPattern of these labels with this number of labels handed out. -/
def Cycle.Shows (c : Cycle L) (x : List L × Nat) : Prop :=
  (x.1 = [] ∧ c.saved = [] ∧ c.rest = []) ∨ c.HandedOut x.1 x.2

/-- The objects are as the user knows them. -/
def Heap.Shows (heap : Heap L) (m : Memory L) : Prop := ∀ id, (heap id).Shows (m id)

/-- A workshift of the base units from `first` to `last`. -/
structure Piece (L : Type) where
  first : Int
  last : Int
  label : L
  deriving DecidableEq

/-- Every base unit of the span is a workshift; the labels are those number `p`, `p + 1`, ... of the endless repetition of `xs`,
or the default label if there are none in `xs`. -/
def unitPieces (dl : L) (xs : List L) (p : Nat) (s : Span) : List (Piece L) :=
  (List.range (s.last + 1 - s.first).toNat).map
    (fun (i : Nat) => { first := s.first + i, last := s.first + i, label := (cyclic xs (p + i)).getD dl })

/-- Every span is a workshift; labels as above. -/
def spanPieces (dl : L) (xs : List L) (p : Nat) (ss : List Span) : List (Piece L) :=
  (ss.zipIdx).map (fun si => { first := si.1.first, last := si.1.last, label := (cyclic xs (p + si.2)).getD dl })

/-- What is read of a span; `M` is what the user remembers from one span to the next. -/
abbrev ReaderOf (M L : Type) := Span → M → Except Err (List (Piece L) × M)

/-- What is read of a span. -/
abbrev Reader (L : Type) := ReaderOf (Memory L) L

/-- The spans are read by the readers in turn, starting with the reader number `n`. -/
def readInTurns {M : Type} (rs : List (ReaderOf M L)) : Nat → List Span → M → Except Err (List (Piece L) × M)
  | _, [], m => .ok ([], m)
  | n, s :: ss, m => match cyclic rs n with
    | none => .ok ([], m)
    | some r => match r s m with
      | .error e => .error e
      | .ok (ps, m1) => match readInTurns rs (n + 1) ss m1 with
        | .error e => .error e
        | .ok (qs, m2) => .ok (ps ++ qs, m2)

mutual
/-- The pieces of a span under a layout.  `f.cut` is the division of a span by marks or by a marker (`Spec/Dividing.lean`). -/
def Layout.read (f : Frame) (dl : L) : Layout L → Reader L
  | .label l => fun s m => .ok ([{ first := s.first, last := s.last, label := l }], m)
  | .pattern (.list xs) => fun s m =>
    if s.skipLeft < 0 then .error .outOfBounds else .ok (unitPieces dl xs s.skipLeft.toNat s, m)
  | .pattern (.rp id) => fun s m =>
    if s.skipLeft < 0 then .error .outOfBounds
    else .ok (unitPieces dl (m id).1 ((m id).2 + s.skipLeft.toNat) s, m.draw id (s.skipLeft.toNat + (s.last + 1 - s.first).toNat))
  | .organizer cut elems => fun s m => match f.cut s cut with
    | .error e => .error e
    | .ok ss => if elems.isEmpty then .ok (unitPieces dl [] 0 s, m) else readInTurns (Layout.readAll f dl elems) 0 ss m
  | .organizerRP cut id => fun s m => match f.cut s cut with
    | .error e => .error e
    | .ok ss => if (m id).1.isEmpty then .ok (unitPieces dl [] 0 s, m)
      else .ok (spanPieces dl (m id).1 (m id).2 ss, m.draw id ss.length)

def Layout.readAll (f : Frame) (dl : L) : List (Layout L) → List (Reader L)
  | [] => []
  | l :: ls => Layout.read f dl l :: Layout.readAll f dl ls
end

/-- The items of the amendments which fall on the piece. -/
def Piece.hits (f : Frame) (items : List (Time × L)) (p : Piece L) : List (Time × L) :=
  items.filter (fun x => decide (f.unitStart p.first ≤ x.1 ∧ x.1 ≤ f.unitEnd p.last))

/-- Amendments: refused if two of them fall on the same workshift. -/
def amendPieces (f : Frame) (items : List (Time × L)) (ps : List (Piece L)) : Except Err (List (Piece L)) :=
  if ps.any (fun p => decide (2 ≤ (p.hits f items).length)) then .error .keyError
  else .ok (ps.map (fun p => { p with label := (((p.hits f items).head?).map Prod.snd).getD p.label }))

/-- The frame: the base units from the one which contains `start` up to the one which contains `end`. -/
def Args.frame (a : Args L) : Except Err Frame :=
  if a.freq.base.ordOf a.stop < a.freq.base.ordOf a.start then .error .voidInterval else .ok (a.freq.periodsOver a.start a.stop)

/-- The workshifts of a timeboard with the given layout, and the RememberingPatterns afterwards. -/
def Args.readLayout (a : Args L) (l : Layout L) (m : Memory L) : Except Err (Frame × List (Piece L) × Memory L) :=
  if a.worktimeSource ≠ "duration" ∧ a.worktimeSource ≠ "labels" then .error .valueError
  else match a.frame with
    | .error e => .error e
    | .ok f => match Layout.read f a.defaultLabel l { first := 0, last := (f.n : Int) - 1 } m with
      | .error e => .error e
      | .ok (ps, m') => match amendPieces f a.amendments ps with
        | .error e => .error e
        | .ok qs => .ok (f, qs, m')

/-- The workshifts of a timeboard with the given arguments.  A single label or a RememberingPattern is not a layout. -/
def Args.read (a : Args L) (m : Memory L) : Except Err (Frame × List (Piece L) × Memory L) :=
  match a.layout with
  | .label _ => .error .typeError
  | .pattern (.rp _) => .error .typeError
  | l => a.readLayout l m

/-- The workshifts of the timeboard are the pieces of the frame, in this order. -/
def Timeboard.ConsistsOf (tb : Timeboard L) (f : Frame) (ps : List (Piece L)) : Prop :=
  tb.timeline.frame = f ∧ tb.timeline.len = (ps.length : Int) ∧
  ∀ (k : Nat) (p : Piece L), ps[k]? = some p → ∃ w, Workshift.new tb k = .ok w ∧ w.startTime tb = .ok (f.unitStart p.first) ∧
    w.endTime tb = .ok (f.unitEnd p.last) ∧ w.duration tb = .ok (p.last - p.first + 1) ∧ w.label = p.label

end TB
