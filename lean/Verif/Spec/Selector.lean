import Verif.Model.Selector
/-! What is meant by a selector which decides, and by two timeboards which decide alike (property C94). -/
namespace TB
variable {L V ε : Type}

/-- The selector `f` answers on each of the labels, its answers have truth values, and these are given by `b`. -/
def Decides (truth : V → Except ε Bool) (f : L → Except ε V) (labels : List L) (b : L → Bool) : Prop :=
  ∀ l ∈ labels, ∃ v, f l = .ok v ∧ truth v = .ok (b l)

/-- `x` is the exception of the first of the labels on which `f` raises any. -/
def RaisesFirst {α β : Type} (f : α → Except ε β) (xs : List α) (x : ε) : Prop :=
  ∃ pre l post, xs = pre ++ l :: post ∧ (∀ m ∈ pre, ∃ v, f m = .ok v) ∧ f l = .error x

/-- The two schedules have the same name and the same indices, and decide alike on the labels of the timeline. -/
def SameSchedule (truth : V → Except ε Bool) (tl : Timeline L) (s : AnySchedule L V ε) (t : Schedule L) : Prop :=
  s.name = t.name ∧ s.onIdx = t.onIdx ∧ s.offIdx = t.offIdx ∧ Decides truth s.selector tl.labels t.selector

/-- The same for lists of schedules with their keys. -/
def SameSchedules (truth : V → Except ε Bool) (tl : Timeline L) : List (String × AnySchedule L V ε) → List (String × Schedule L) → Prop
  | [], [] => True
  | (n, s) :: ss, (m, t) :: ts => n = m ∧ SameSchedule truth tl s t ∧ SameSchedules truth tl ss ts
  | _, _ => False

/-- The same timeboard but for the selectors, which decide alike. -/
def SameTimeboard (truth : V → Except ε Bool) (x : AnyTimeboard L V ε) (y : Timeboard L) : Prop :=
  x.timeline = y.timeline ∧ x.worktimeSource = y.worktimeSource ∧ SameSchedule truth y.timeline x.defaultSchedule y.defaultSchedule ∧
  SameSchedules truth y.timeline x.schedules y.schedules

/-- The same workshift but for the selectors, which decide alike. -/
def SameWorkshift (truth : V → Except ε Bool) (tl : Timeline L) (x : AnyWorkshift L V ε) (y : Workshift L) : Prop :=
  x.loc = y.loc ∧ x.label = y.label ∧ SameSchedule truth tl x.schedule y.schedule

/-- The same schedule argument: both or none given. -/
def SameGiven (truth : V → Except ε Bool) (tl : Timeline L) : Option (AnySchedule L V ε) → Option (Schedule L) → Prop
  | none, none => True
  | some s, some t => SameSchedule truth tl s t
  | _, _ => False

/-- Both succeed with results related by `R`, or both fail with the same exception of the library; in particular no foreign
exception is raised. -/
def Agree {α β : Type} (R : α → β → Prop) : Except (Raised ε) α → Except Err β → Prop
  | .ok a, .ok b => R a b
  | .error (.own e), .error e' => e = e'
  | _, _ => False

end TB
