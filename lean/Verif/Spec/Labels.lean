import Verif.Spec.Attempt
/-! Where the labels of workshifts come from, and timeboards with other labels. -/
namespace TB
variable {L M : Type}

/-- The label occurs in the layout: as an element of a structure, in a pattern, or in a RememberingPattern. -/
def Layout.Offers (l : Layout L) (heap : Heap L) (x : L) : Prop :=
  Layout.Within (.label x) l ∨ (∃ xs, Layout.Within (.pattern (.list xs)) l ∧ x ∈ xs) ∨
  ∃ id, l.UsesRP id ∧ (x ∈ (heap id).saved ∨ x ∈ (heap id).rest)

/-- No structure, pattern or RememberingPattern of the layout is empty. -/
def Layout.Filled (l : Layout L) (heap : Heap L) : Prop :=
  (∀ cut, ¬ Layout.Within (.organizer cut []) l) ∧ ¬ Layout.Within (.pattern (.list [])) l ∧ ∀ id, l.UsesRP id → (heap id).saved ≠ []

/-- The pattern with other labels in place of the labels. -/
def Pattern.map (g : L → M) : Pattern L → Pattern M
  | .list xs => .list (xs.map g)
  | .rp id => .rp id

mutual
/-- The layout with other labels in place of the labels. -/
def Layout.map (g : L → M) : Layout L → Layout M
  | .organizer cut elems => .organizer cut (Layout.mapAll g elems)
  | .organizerRP cut id => .organizerRP cut id
  | .pattern p => .pattern (p.map g)
  | .label l => .label (g l)
/-- The elements of a structure with other labels. -/
def Layout.mapAll (g : L → M) : List (Layout L) → List (Layout M)
  | [] => []
  | l :: ls => Layout.map g l :: Layout.mapAll g ls
end

/-- The RememberingPatterns with other labels, in the same states. -/
def Heap.map (g : L → M) (h : Heap L) : Heap M := fun id => { saved := (h id).saved.map g, rest := (h id).rest.map g }

/-- The arguments of a timeboard with other labels, and a selector for them. -/
def Args.map (g : L → M) (sel : M → Bool) (a : Args L) : Args M where
  freq := a.freq
  start := a.start
  stop := a.stop
  layout := a.layout.map g
  amendments := a.amendments.map (fun p => (p.1, g p.2))
  selector := sel
  defaultName := a.defaultName
  refEnd := a.refEnd
  defaultLabel := g a.defaultLabel
  worktimeSource := a.worktimeSource

/-- The schedules have the same name, make the same decision about a label and the label which replaces it, and have the same
workshifts on duty and off duty. -/
structure Schedule.Renamed (g : L → M) (s : Schedule L) (s' : Schedule M) : Prop where
  name : s'.name = s.name
  selector : ∀ x, s'.selector (g x) = s.selector x
  onIdx : s'.onIdx = s.onIdx
  offIdx : s'.offIdx = s.offIdx

/-- The same workshift with another label. -/
structure Workshift.Renamed (g : L → M) (w : Workshift L) (w' : Workshift M) : Prop where
  loc : w'.loc = w.loc
  label : w'.label = g w.label
  schedule : w.schedule.Renamed g w'.schedule

/-- The same interval of the timeboard with other labels. -/
structure Interval.Renamed (g : L → M) (v : Interval L) (v' : Interval M) : Prop where
  lo : v'.lo = v.lo
  hi : v'.hi = v.hi
  length : v'.length = v.length
  isVoid : v'.isVoid = v.isVoid
  schedule : v.schedule.Renamed g v'.schedule

/-- Lists of the same length whose elements correspond. -/
inductive ListRenamed {α β : Type} (R : α → β → Prop) : List α → List β → Prop where
  | nil : ListRenamed R [] []
  | cons {x : α} {y : β} {xs : List α} {ys : List β} : R x y → ListRenamed R xs ys → ListRenamed R (x :: xs) (y :: ys)

/-- The timeboards differ only in the labels. -/
structure Timeboard.Renamed (g : L → M) (tb : Timeboard L) (tb' : Timeboard M) : Prop where
  frame : tb'.timeline.frame = tb.timeline.frame
  wsIdx : tb'.timeline.wsIdx = tb.timeline.wsIdx
  frameband : tb'.timeline.frameband = tb.timeline.frameband
  refEnd : tb'.timeline.refEnd = tb.timeline.refEnd
  labels : tb'.timeline.labels = tb.timeline.labels.map g
  schedule : tb.defaultSchedule.Renamed g tb'.defaultSchedule
  schedules : ListRenamed (fun p q => q.1 = p.1 ∧ p.2.Renamed g q.2) tb.schedules tb'.schedules
  source : tb'.worktimeSource = tb.worktimeSource

/-- Both calls fail with the same exception or both return, and the results correspond. -/
inductive Corresponds {α β : Type} (R : α → β → Prop) : Except Err α → Except Err β → Prop where
  | error (e : Err) : Corresponds R (.error e) (.error e)
  | ok {x : α} {y : β} : R x y → Corresponds R (.ok x) (.ok y)

/-- The same workshift, or the same interval. -/
inductive CallResult.Renamed (g : L → M) : CallResult L → CallResult M → Prop where
  | workshift {w : Workshift L} {w' : Workshift M} : w.Renamed g w' → CallResult.Renamed g (.workshift w) (.workshift w')
  | interval {v : Interval L} {v' : Interval M} : v.Renamed g v' → CallResult.Renamed g (.interval v) (.interval v')

/-- The row of the data frame with another label. -/
def TbRow.map (g : L → M) (r : TbRow L) : TbRow M :=
  { row := { loc := r.row.loc, wsRef := r.row.wsRef, start := r.row.start, duration := r.row.duration, stop := r.row.stop, label := g r.row.label }, duty := r.duty }

/-- Both optional schedules are left out, or correspond. -/
inductive OptRenamed (g : L → M) : Option (Schedule L) → Option (Schedule M) → Prop where
  | none : OptRenamed g none none
  | some {s : Schedule L} {s' : Schedule M} : s.Renamed g s' → OptRenamed g (some s) (some s')

end TB
