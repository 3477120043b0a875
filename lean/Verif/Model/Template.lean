import Verif.Model.Calendars
/-!
# Template of calendars

Models `CalendarBase` (timeboard/calendars/calendarbase.py 196-340) with arbitrary overridden class methods.
-/
namespace TB
variable {L : Type}

/-- A subclass of `CalendarBase`: `params` is the dictionary returned by `parameters` (its `amendments` are not used),
`amend` the class method `amendments` with the additional keyword arguments already given.  An exception raised by it is an
error value.  Simplification: `parameters` returns the same value each time, 'start' and 'end' are points in time. -/
structure Template (L : Type) where
  params : Args L
  amend : Time → Time → Option (List (Time × L)) → Except Err (List (Time × L))

/-- `_check_time`: calendarbase.py 304-308. -/
def Template.checkTime (c : Template L) (t : Time) : Except Err Unit :=
  if c.params.start ≤ t ∧ t ≤ c.params.stop then .ok () else .error .outOfBounds

/-- `_get_bounds`: calendarbase.py 310-322. -/
def Template.getBounds (c : Template L) (customStart customEnd : Option Time) : Except Err (Time × Time) := do
  let s ← match customStart with
    | none => pure c.params.start
    | some t => do c.checkTime t; pure t
  let e ← match customEnd with
    | none => pure c.params.stop
    | some t => do c.checkTime t; pure t
  return (s, e)

/-- `__new__`: calendarbase.py 324-340. `amendments=None` means none (timeboard.py 185-186). -/
def Template.new (c : Template L) (customStart customEnd : Option Time) (doNotAmend onlyCustom : Bool)
    (custom : Option (List (Time × L))) (heap : Heap L) : Except Err (Timeboard L × Heap L) := do
  let b ← c.getBounds customStart customEnd
  let am ←
    if doNotAmend then pure []
    else if onlyCustom then pure (custom.getD [])
    else c.amend b.1 b.2 custom
  Timeboard.new { c.params with start := b.1, stop := b.2, amendments := am } heap

/-- `CalendarBase` itself: calendarbase.py 284-302. The label -1 stands for None, the label of base units without one; the
selector is `bool`. -/
def calendarBase : Template Int where
  params := { freq := Denom.D.freq, start := date 2001 1 1, stop := date 2030 12 31, layout := .pattern (.list [1])
              selector := fun l => l != 0, defaultLabel := -1 }
  amend := fun _ _ custom => .ok (custom.getD [])

/-- A preconfigured calendar as a subclass. -/
def Calendar.template (c : Calendar) : Template Int where
  params := Calendar.args c.start c.stop []
  amend := fun a b custom => (c.amendments (some a) (some b) custom).map (fun d => d.map (fun x => (x.1.time, x.2)))

end TB
