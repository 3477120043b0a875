import Verif.Model.Interval
/-! Which timeboards, schedules and intervals a user can have. -/
namespace TB
variable {L : Type}

/-- Timeboards which can be made through the public API: by the constructor, then by adding and dropping
schedules. -/
inductive Timeboard.Reachable : Timeboard L → Prop where
  | new {a : Args L} {heap heap' : Heap L} {tb : Timeboard L} (h : Timeboard.new a heap = .ok (tb, heap')) : Reachable tb
  | add {tb tb' : Timeboard L} {name : String} {sel : L → Bool} {s : Schedule L} (hr : Reachable tb)
      (h : tb.addSchedule name sel = .ok (s, tb')) : Reachable tb'
  | drop {tb tb' : Timeboard L} {s : Schedule L} (hr : Reachable tb) (h : tb.dropSchedule s = .ok tb') : Reachable tb'

/-- The schedule was created for this timeboard (its name and selector are arbitrary).  Dropping a schedule
does not invalidate the object. -/
def Timeboard.Owns (tb : Timeboard L) (s : Schedule L) : Prop := s = Schedule.new tb.timeline s.name s.selector

/-- The optional `schedule` argument: none, or a schedule of the timeboard. -/
def Timeboard.OwnsOpt (tb : Timeboard L) (s : Option (Schedule L)) : Prop := ∀ x, s = some x → tb.Owns x

/-- The schedule in effect when the optional argument is given to a constructor. -/
def Timeboard.effective (tb : Timeboard L) (s : Option (Schedule L)) : Schedule L := s.getD tb.defaultSchedule

/-- Whether a label counts for the given value of parameter `duty`, under a selector. -/
def dutyMatches (duty : Duty) (sel : L → Bool) (l : L) : Bool :=
  match duty with
  | .on => sel l
  | .off => !sel l
  | .any => true
  | _ => false

/-- The positions `lo..hi` of workshifts whose label matches the duty, in ascending order. -/
def Timeboard.dutyPositions (tb : Timeboard L) (sel : L → Bool) (duty : Duty) (lo hi : Int) : List Int :=
  (intRange lo (hi + 1)).filter (fun k => match tb.timeline.label k with
    | .ok l => dutyMatches duty sel l
    | .error _ => false)

end TB
