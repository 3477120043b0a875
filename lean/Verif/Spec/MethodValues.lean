import Verif.Model.MethodValues
/-! Specification of arguments of methods: which values are integers, which strings are duties, which values are schedules. -/
namespace TB
variable {L : Type}

/-- The value is an integer; True is 1 and False is 0. -/
inductive StepsValue.Is : StepsValue → Int → Prop
  | int {n : Int} : Is (.int n) n
  | true : Is (.bool true) 1
  | false : Is (.bool false) 0

/-- The value is one of the five documented strings. -/
inductive DutyValue.Says : DutyValue → Duty → Prop
  | on : Says (.word "on") .on
  | off : Says (.word "off") .off
  | any : Says (.word "any") .any
  | same : Says (.word "same") .same
  | alt : Says (.word "alt") .alt

/-- One of the three strings documented for intervals. -/
inductive DutyValue.Plain : DutyValue → Duty → Prop
  | on : Plain (.word "on") .on
  | off : Plain (.word "off") .off
  | any : Plain (.word "any") .any

/-- The exception for a value which is not a duty of intervals: TypeError if it cannot be looked up in a dictionary, otherwise ValueError. -/
def DutyValue.wrong : DutyValue → Err
  | .unhashable => .typeError
  | _ => .valueError

/-- Nothing, or a schedule. -/
inductive ScheduleValue.Means : ScheduleValue L → Option (Schedule L) → Prop
  | none : Means .none Option.none
  | schedule {s : Schedule L} : Means (.schedule s) (some s)

end TB
