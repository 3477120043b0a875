import Verif.Conformance.CalendarsGeneric
import Verif.Conformance.CalendarsRuUsUk
import Verif.Conformance.DocCalculations
import Verif.Conformance.DocCalendarBase
import Verif.Conformance.DocInterval
import Verif.Conformance.DocMaking
import Verif.Conformance.DocQuickStart
import Verif.Conformance.DocReadme
import Verif.Conformance.DocTimeboard
import Verif.Conformance.DocWorkshift
import Verif.Conformance.Frames
import Verif.Conformance.IntervalMethods
import Verif.Conformance.Intervals
import Verif.Conformance.IntervalsCompound
import Verif.Conformance.Organizers
import Verif.Conformance.Partitioning
import Verif.Conformance.Patterns
import Verif.Conformance.Support
import Verif.Conformance.Timeboard
import Verif.Conformance.Workshift
import Verif.Conformance.WorkshiftCompound
import Verif.Conformance.WrongArguments
import Verif.Examples.Boards
import Verif.Lemmas.Amend
import Verif.Lemmas.AmendCounts
import Verif.Lemmas.Anchor
import Verif.Lemmas.AnyDepth
import Verif.Lemmas.Attempt
import Verif.Lemmas.Basic
import Verif.Lemmas.Calendar
import Verif.Lemmas.CalendarDays
import Verif.Lemmas.CalendarLabels
import Verif.Lemmas.CalendarYears
import Verif.Lemmas.Calendars
import Verif.Lemmas.Candidates
import Verif.Lemmas.Civil
import Verif.Lemmas.Construct
import Verif.Lemmas.Continue
import Verif.Lemmas.Continue2
import Verif.Lemmas.CountPeriods
import Verif.Lemmas.Dangle
import Verif.Lemmas.Dangles
import Verif.Lemmas.DaysOff
import Verif.Lemmas.DaysOffUS
import Verif.Lemmas.Dict
import Verif.Lemmas.Dividing
import Verif.Lemmas.Duty
import Verif.Lemmas.Easter
import Verif.Lemmas.Extend
import Verif.Lemmas.Fixed
import Verif.Lemmas.Float64
import Verif.Lemmas.Floats
import Verif.Lemmas.ForeignSchedule
import Verif.Lemmas.Frame
import Verif.Lemmas.Freq
import Verif.Lemmas.FreqText
import Verif.Lemmas.GetInterval
import Verif.Lemmas.HolidayYears
import Verif.Lemmas.Holidays
import Verif.Lemmas.IntKinds
import Verif.Lemmas.Intervals
import Verif.Lemmas.Inwards
import Verif.Lemmas.Iterators
import Verif.Lemmas.Iterators2
import Verif.Lemmas.Iterators3
import Verif.Lemmas.LabelSums
import Verif.Lemmas.Labels
import Verif.Lemmas.Later
import Verif.Lemmas.Later2
import Verif.Lemmas.Later3
import Verif.Lemmas.Layout
import Verif.Lemmas.Layout2
import Verif.Lemmas.Layout3
import Verif.Lemmas.Layout4
import Verif.Lemmas.Limits
import Verif.Lemmas.Local
import Verif.Lemmas.Local2
import Verif.Lemmas.Local3
import Verif.Lemmas.Local4
import Verif.Lemmas.Marker
import Verif.Lemmas.MarkerAt
import Verif.Lemmas.MarkerHow
import Verif.Lemmas.MarkerZero
import Verif.Lemmas.Marks
import Verif.Lemmas.Multiplied
import Verif.Lemmas.Names
import Verif.Lemmas.Names2
import Verif.Lemmas.Nested
import Verif.Lemmas.Notation
import Verif.Lemmas.OneShot
import Verif.Lemmas.OneShot2
import Verif.Lemmas.OneShot3
import Verif.Lemmas.Order
import Verif.Lemmas.Parameters
import Verif.Lemmas.Partition
import Verif.Lemmas.Ratio
import Verif.Lemmas.Reading
import Verif.Lemmas.Reading2
import Verif.Lemmas.Recipes
import Verif.Lemmas.Recurs
import Verif.Lemmas.Reference
import Verif.Lemmas.Reference2
import Verif.Lemmas.Reference3
import Verif.Lemmas.Regular
import Verif.Lemmas.Regular2
import Verif.Lemmas.Renamed
import Verif.Lemmas.Renamed2
import Verif.Lemmas.Repr
import Verif.Lemmas.Roll
import Verif.Lemmas.Rota
import Verif.Lemmas.SameTimes
import Verif.Lemmas.SameTimes2
import Verif.Lemmas.Schedule
import Verif.Lemmas.Seasons
import Verif.Lemmas.Seek
import Verif.Lemmas.Session
import Verif.Lemmas.Sources
import Verif.Lemmas.Superfluous
import Verif.Lemmas.Text
import Verif.Lemmas.Timeboard
import Verif.Lemmas.Timeline
import Verif.Lemmas.Timeline2
import Verif.Lemmas.TriedOut
import Verif.Lemmas.TwoGoes
import Verif.Lemmas.Values
import Verif.Lemmas.Weekday
import Verif.Lemmas.When
import Verif.Lemmas.WorkingDays
import Verif.Lemmas.Years
import Verif.Model.Attempt
import Verif.Model.Basic
import Verif.Model.ByHand
import Verif.Model.Calendar
import Verif.Model.Calendars
import Verif.Model.Carry
import Verif.Model.Columns
import Verif.Model.Floats
import Verif.Model.Foreign
import Verif.Model.Frame
import Verif.Model.Freq
import Verif.Model.FreqText
import Verif.Model.IntKinds
import Verif.Model.Interval
import Verif.Model.Iteration
import Verif.Model.Iterators
import Verif.Model.LabelSums
import Verif.Model.Layout
import Verif.Model.LayoutValue
import Verif.Model.Limits
import Verif.Model.MethodValues
import Verif.Model.OneShot
import Verif.Model.Repr
import Verif.Model.Rules
import Verif.Model.Selector
import Verif.Model.Session
import Verif.Model.Sources
import Verif.Model.Template
import Verif.Model.Text
import Verif.Model.Timeboard
import Verif.Model.Timeline
import Verif.Model.Values
import Verif.Model.When
import Verif.Model.Workshift
import Verif.Props.Additive
import Verif.Props.Amend
import Verif.Props.AmendCounts
import Verif.Props.AnyDepth
import Verif.Props.Attempt
import Verif.Props.ByHand
import Verif.Props.Calendars
import Verif.Props.Carry
import Verif.Props.Civil
import Verif.Props.Columns
import Verif.Props.Construct
import Verif.Props.Continue
import Verif.Props.CountPeriods
import Verif.Props.Dangles
import Verif.Props.Dataframe
import Verif.Props.DaysOff
import Verif.Props.DecreeNorms
import Verif.Props.DecreeYears
import Verif.Props.Decrees
import Verif.Props.Defaults
import Verif.Props.Duty
import Verif.Props.Errors
import Verif.Props.Floats
import Verif.Props.Foreign
import Verif.Props.ForeignSchedule
import Verif.Props.FreqText
import Verif.Props.Frequencies
import Verif.Props.GetInterval
import Verif.Props.Holidays
import Verif.Props.Hours
import Verif.Props.IntKinds
import Verif.Props.Inwards
import Verif.Props.Iteration
import Verif.Props.Iterators
import Verif.Props.Keeping
import Verif.Props.LabelSums
import Verif.Props.Labels
import Verif.Props.Later
import Verif.Props.Layout
import Verif.Props.LayoutValue
import Verif.Props.Limits
import Verif.Props.Local
import Verif.Props.MarkerAt
import Verif.Props.MethodValues
import Verif.Props.Monotone
import Verif.Props.Names
import Verif.Props.Nested
import Verif.Props.NotGiven
import Verif.Props.Notation
import Verif.Props.NthRoll
import Verif.Props.OneShot
import Verif.Props.Order
import Verif.Props.Overlap
import Verif.Props.Parameters
import Verif.Props.Partition
import Verif.Props.Periods
import Verif.Props.Portions
import Verif.Props.Reading
import Verif.Props.Recipes
import Verif.Props.Reference
import Verif.Props.Repr
import Verif.Props.Reuse
import Verif.Props.Roll
import Verif.Props.Rota
import Verif.Props.Rules
import Verif.Props.SameTimes
import Verif.Props.ScheduleAlgebra
import Verif.Props.ScheduleSteps
import Verif.Props.Schedules
import Verif.Props.Seasons
import Verif.Props.Selector
import Verif.Props.Session
import Verif.Props.Sources
import Verif.Props.Superfluous
import Verif.Props.Template
import Verif.Props.Text
import Verif.Props.Tiling
import Verif.Props.Together
import Verif.Props.TriedOut
import Verif.Props.TwoGoes
import Verif.Props.Units
import Verif.Props.Values
import Verif.Props.When
import Verif.Props.WorkingDays
import Verif.Props.Worktime
import Verif.Props.Written
import Verif.Spec.AmendEffect
import Verif.Spec.AnyDepth
import Verif.Spec.Attempt
import Verif.Spec.Carry
import Verif.Spec.Civil
import Verif.Spec.Construct
import Verif.Spec.Counting
import Verif.Spec.Dangles
import Verif.Spec.DaysOff
import Verif.Spec.Decrees
import Verif.Spec.Dividing
import Verif.Spec.Duty
import Verif.Spec.Easter
import Verif.Spec.Extend
import Verif.Spec.Floats
import Verif.Spec.Foreign
import Verif.Spec.ForeignSchedule
import Verif.Spec.FreqText
import Verif.Spec.Frequencies
import Verif.Spec.Holidays
import Verif.Spec.IntKinds
import Verif.Spec.Intervals
import Verif.Spec.Inwards
import Verif.Spec.Iterators
import Verif.Spec.Keeping
import Verif.Spec.LabelSums
import Verif.Spec.Labels
import Verif.Spec.Later
import Verif.Spec.Layout
import Verif.Spec.LayoutValue
import Verif.Spec.Limits
import Verif.Spec.Local
import Verif.Spec.Marks
import Verif.Spec.MethodValues
import Verif.Spec.Names
import Verif.Spec.Nested
import Verif.Spec.Notation
import Verif.Spec.OneShot
import Verif.Spec.Order
import Verif.Spec.Parameters
import Verif.Spec.Points
import Verif.Spec.Reachable
import Verif.Spec.Reading
import Verif.Spec.Recipes
import Verif.Spec.Reference
import Verif.Spec.Repr
import Verif.Spec.Roll
import Verif.Spec.Rota
import Verif.Spec.Rules
import Verif.Spec.SameTimes
import Verif.Spec.ScheduleAlgebra
import Verif.Spec.Seasons
import Verif.Spec.Selector
import Verif.Spec.Session
import Verif.Spec.Sources
import Verif.Spec.Superfluous
import Verif.Spec.Text
import Verif.Spec.Tiling
import Verif.Spec.TwoGoes
import Verif.Spec.Values
import Verif.Spec.Weekday
import Verif.Spec.Written
