import Verif.Model.When
import Verif.Model.Interval
import Verif.Spec.Points
import Verif.Spec.Counting
import Verif.Spec.Reference
/-!
# Recipes

Programs which the documentation offers to users ("Common Use Cases", doc/source/use_cases.ipynb), written with the methods of the
model.
-/
namespace TB
variable {L : Type}

/-- The loop of "Determining deadlines" (doc/source/use_cases.ipynb) after the first stage of the project: a stage starts on
`end_dates[-1] + 1` and ends on `start_dates[-1] + (stage_duration - 1)`. -/
def Timeboard.stagesAfter (tb : Timeboard L) (last : Workshift L) : List Int → Except Err (List (Workshift L × Workshift L))
  | [] => .ok []
  | d :: ds => do
    let a ← last.add tb 1
    let b ← a.add tb (d - 1)
    let rest ← tb.stagesAfter b ds
    return (a, b) :: rest

/-- The recipe "Determining deadlines" (doc/source/use_cases.ipynb): the first and the last workshift of each stage of a project, given
the start of the project and the durations of the stages in workshifts on duty.  The first stage starts on
`clnd(project_start).rollforward()`. -/
def Timeboard.timetable (tb : Timeboard L) (start : Time) : List Int → Except Err (List (Workshift L × Workshift L))
  | [] => .ok []
  | d :: ds => do
    let w ← tb.getWorkshift start
    let a ← w.rollforward tb
    let b ← a.add tb (d - 1)
    let rest ← tb.stagesAfter b ds
    return (a, b) :: rest

/-- The members of a staff register who are employed at the workshift, each with the tenure and the rate. -/
def employed (register : List (Interval L × Rat)) (k : Int) : List (Interval L × Rat) :=
  register.filter (fun p => p.1.numbers.contains k)

end TB
