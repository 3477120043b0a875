import Verif.Model.Timeboard
import Verif.Model.Workshift
/-! Specification of layouts: the state of a RememberingPattern, the labels it hands out, workshifts by start time. -/
namespace TB
variable {L : Type}

/-- The element number `p` of the endless cyclic repetition of a non-empty list. -/
def cyclic (xs : List L) (p : Nat) : Option L := xs[p % xs.length]?

/-- A RememberingPattern of the (non-empty) labels `xs` which has handed out `p` labels. -/
def Cycle.HandedOut (c : Cycle L) (xs : List L) (p : Nat) : Prop :=
  xs ≠ [] ∧ c.saved = xs ∧ (c.rest = xs.drop (p % xs.length) ∨ (c.rest = [] ∧ p % xs.length = 0))

/-- The base units to which a span of a pattern gives labels, after `skip` discarded labels. -/
def spanDraws (s : Span) : List (Option Int) :=
  List.replicate s.skipLeft.toNat none ++ (intRange s.first (s.last + 1)).map some

/-- The elements of the structure take turns on the spans. -/
def inTurns (ds : List (Span → List (Option Int))) (ss : List Span) : List (Option Int) :=
  (ss.zipIdx).flatMap (fun si => match ds[si.2 % ds.length]? with
    | some d => d si.1
    | none => [])

mutual
/-- What becomes of the labels drawn from the RememberingPattern `id` when the layout is applied to a span, in the order
of drawing: `some u` when the label is given to the workshift starting with the base unit `u`, `none` when it is
discarded. -/
def Layout.draws (f : Frame) (id : Nat) : Layout L → Span → List (Option Int)
  | .organizer cut elems => fun s => match f.cutSpan cut s with
    | .error _ => []
    | .ok ss => inTurns (Layout.drawsAll f id elems) ss
  | .organizerRP cut j => fun s => match f.cutSpan cut s with
    | .error _ => []
    | .ok ss => if j = id then ss.map (fun x => some x.first) else []
  | .pattern (.rp j) => fun s => if j = id then spanDraws s else []
  | .pattern (.list _) => fun _ => []
  | .label _ => fun _ => []

def Layout.drawsAll (f : Frame) (id : Nat) : List (Layout L) → List (Span → List (Option Int))
  | [] => []
  | l :: ls => Layout.draws f id l :: Layout.drawsAll f id ls
end

mutual
/-- No RememberingPattern occurs in the layout. -/
def Layout.plain : Layout L → Bool
  | .organizer _ elems => Layout.plainAll elems
  | .organizerRP _ _ => false
  | .pattern (.list _) => true
  | .pattern (.rp _) => false
  | .label _ => true

def Layout.plainAll : List (Layout L) → Bool
  | [] => true
  | l :: ls => Layout.plain l && Layout.plainAll ls
end

/-- A workshift with label `l` which starts at `t` and consists of `d` base units. -/
def Timeboard.Starts (tb : Timeboard L) (t : Time) (d : Int) (l : L) : Prop :=
  ∃ k w, 0 ≤ k ∧ k < tb.timeline.len ∧ Workshift.new tb k = .ok w ∧ w.startTime tb = .ok t ∧ w.duration tb = .ok d ∧ w.label = l

end TB
