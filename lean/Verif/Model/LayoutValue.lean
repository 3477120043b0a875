import Verif.Model.Timeboard
/-!
# What may be given as the layout

`layout` is "Iterable or Organizer" (timeboard.py 36-44).  `Model/Timeboard.lean` starts with what the layout means; here it is a value of any
kind, and the warning which may be issued is part of the outcome.  Labels are any objects: `obj o` is the organizer `o` taken as
a label.  Left out: values which are indexed otherwise than they are iterated (pandas Series), and labels which are sequences
themselves (what numpy makes of them depends on its version).
-/
namespace TB
variable {L : Type}

/-- An element of an iterable: an Organizer or anything else. -/
inductive LayoutItem (L : Type) where
  | plain (l : L)
  | organizer (o : Layout L)

/-- The element taken as a label. -/
def LayoutItem.label (obj : Layout L → L) : LayoutItem L → L
  | .plain l => l
  | .organizer o => obj o

/-- `isinstance(x, Organizer)`: timeboard.py 176. -/
def LayoutItem.isOrganizer : LayoutItem L → Bool
  | .plain _ => false
  | .organizer _ => true

/-- A value given as `layout`.  `sequence`: a list, a tuple, an array, a range.  `unordered`: a set, with its elements in the order of iteration;
it has no items to get by number.  `mapping`: a dictionary, by its entries (the key, whether the key equals 0, the value).  `iterator`: has no `len`; generators,
RememberingPatterns.  `notIterable`: None, numbers, functions, and strings as well (`is_iterable`, utils.py 35-37). -/
inductive LayoutValue (L : Type) where
  | organizer (cut : Cut) (structure_ : List (Layout L))
  | organizerRP (cut : Cut) (id : Nat)
  | sequence (items : List (LayoutItem L))
  | unordered (items : List (LayoutItem L))
  | mapping (entries : List (LayoutItem L × Bool × LayoutItem L))
  | iterator
  | notIterable

/-- timeboard.py 173-184: the layout of the organizer, and whether the SyntaxWarning is issued.  `len(layout) == 1 and isinstance(layout[0], Organizer)`
(line 176): `layout[0]` is looked at only when there is one element; for a set it is TypeError, for a dictionary it is the value of the key 0, KeyError if
there is none.  Iterating over a dictionary yields its keys. -/
def LayoutValue.read (obj : Layout L → L) : LayoutValue L → Except Err (Layout L × Bool)
  | .organizer c e => .ok (.organizer c e, false)
  | .organizerRP c i => .ok (.organizerRP c i, false)
  | .sequence xs =>
    let p := Layout.pattern (.list (xs.map (LayoutItem.label obj)))
    match xs with
    | [x] => .ok (p, x.isOrganizer)
    | _ => .ok (p, false)
  | .unordered xs =>
    match xs with
    | [_] => .error .typeError
    | _ => .ok (.pattern (.list (xs.map (LayoutItem.label obj))), false)
  | .mapping es =>
    let p := Layout.pattern (.list (es.map (fun e => e.1.label obj)))
    match es with
    | [(_, zero, v)] => if zero then .ok (p, v.isOrganizer) else .error .keyError
    | _ => .ok (p, false)
  | .iterator => .error .typeError
  | .notIterable => .error .typeError

/-- `Timeboard.__init__`: timeboard.py 164-226, with a layout of any kind: whether the warning was issued, and the outcome.  The layout is looked at before
all other arguments; the warning is issued even if the construction fails afterwards. -/
def Timeboard.newL (obj : Layout L → L) (a : Args L) (x : LayoutValue L) (heap : Heap L) : Bool × Except Err (Timeboard L × Heap L) :=
  match x.read obj with
  | .error e => (false, .error e)
  | .ok (l, warned) => (warned, Timeboard.new { a with layout := l } heap)

end TB
