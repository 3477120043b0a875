import Verif.Model.Interval
/-! A timeboard written down as a table (C125). -/
namespace TB
variable {L : Type}

/-- The rows of the table are the starts and the labels of the workshifts, one after the other. -/
def Timeboard.Table (tb : Timeboard L) (rows : List (Time × L)) : Prop :=
  tb.timeline.len = (rows.length : Int) ∧
  ∀ (k : Nat) r, rows[k]? = some r → ∃ w, Workshift.new tb k = .ok w ∧ w.startTime tb = .ok r.1 ∧ w.label = r.2

/-- The same parameters with the layout which is read off the table: the given marks, and the labels one by one.  The default
label does not matter: every base unit gets a label from the table. -/
def Args.written (a : Args L) (tb : Timeboard L) (marks : List Time) (rows : List (Time × L)) (anything : L) : Args L :=
  { a with defaultLabel := anything, start := tb.startTime, stop := tb.endTime, amendments := [], layout := .organizer (.marks marks) (rows.map (fun r => .label r.2)) }

end TB
