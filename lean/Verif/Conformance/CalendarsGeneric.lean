import Verif.Conformance.Support
/-!
# `timeboard/tests/calendars/test_calendars_generic.py`

Generated by `tools/conformance.py`.  One example per unit test: the statements of the test, performed by the
model, succeed.  These are checks of the model on single inputs, not proofs of properties.
-/
set_option linter.unusedVariables false
namespace TB.Conf

/-- timeboard/tests/calendars/test_calendars_generic.py 11: `TestCalendarUtils.test_nth_weekday_positive`. -/
example : passes (do
    let x1 ← nthWeekdays (V := V) 2017 [{ month := 12, weekday := 5, n := 1 }, { month := 12, weekday := 7, n := 1 }, { month := 12, weekday := 3, n := 1 }, { month := 12, weekday := 3, n := 4 }, { month := 12, weekday := 3, n := 5 }, { month := 12, weekday := 5, n := 5 }, { month := 12, weekday := 7, n := 5 }, { month := 5, weekday := 1, n := 1 }, { month := 5, weekday := 1, n := 5 }] (.i 5) false
    check 25 (decide (sortList (x1.map Prod.fst) = [(ts 2017 5 1), (ts 2017 5 29), (ts 2017 12 1), (ts 2017 12 3), (ts 2017 12 6), (ts 2017 12 27), (ts 2017 12 29), (ts 2017 12 31)]))
    check 26 (decide ((((x1.map Prod.snd).filter (fun l => decide (l = (.i 5)))).length : Int) = (x1.length : Int)))
    pure ()) = true := by decide +kernel

/-- timeboard/tests/calendars/test_calendars_generic.py 28: `TestCalendarUtils.test_nth_weekday_negative`. -/
example : passes (do
    let x1 ← nthWeekdays (V := V) 2017 [{ month := 12, weekday := 3, n := (-1) }, { month := 12, weekday := 3, n := (-4) }, { month := 12, weekday := 3, n := (-5) }, { month := 12, weekday := 5, n := (-1) }, { month := 12, weekday := 7, n := (-1) }, { month := 5, weekday := 1, n := (-1) }, { month := 5, weekday := 1, n := (-5) }] (.i 5) false
    check 41 (decide (sortList (x1.map Prod.fst) = [(ts 2017 5 1), (ts 2017 5 29), (ts 2017 12 6), (ts 2017 12 27), (ts 2017 12 29), (ts 2017 12 31)]))
    check 42 (decide ((((x1.map Prod.snd).filter (fun l => decide (l = (.i 5)))).length : Int) = (x1.length : Int)))
    pure ()) = true := by decide +kernel

/-- timeboard/tests/calendars/test_calendars_generic.py 44: `TestCalendarUtils.test_nth_weekday_shift`. -/
example : passes (do
    let x1 ← nthWeekdays (V := V) 2017 [{ month := 12, weekday := 5, n := 1, shift := 0 }, { month := 12, weekday := 5, n := 1, shift := 2 }, { month := 12, weekday := 5, n := 1, shift := (-2) }] (.i 0) false
    check 52 (decide (sortList (x1.map Prod.fst) = [(ts 2017 11 29), (ts 2017 12 1), (ts 2017 12 3)]))
    check 53 (decide ((((x1.map Prod.snd).filter (fun l => decide (l = (.i 0)))).length : Int) = (x1.length : Int)))
    pure ()) = true := by decide +kernel

/-- timeboard/tests/calendars/test_calendars_generic.py 55: `TestCalendarUtils.test_nth_weekday_bad_n`. -/
example : passes (do
    raises 56 [.outOfBounds] (do
      let x1 ← nthWeekdays (V := V) 2017 [{ month := 12, weekday := 3, n := 5 }] (.i 0) true
      pure ())
    raises 58 [.outOfBounds] (do
      let x2 ← nthWeekdays (V := V) 2017 [{ month := 12, weekday := 3, n := (-5) }] (.i 0) true
      pure ())
    raises 60 [.assertionError] (do
      let x3 ← nthWeekdays (V := V) 2017 [{ month := 5, weekday := 1, n := (-6) }] (.i 0) false
      pure ())
    raises 62 [.assertionError] (do
      let x4 ← nthWeekdays (V := V) 2017 [{ month := 5, weekday := 1, n := 6 }] (.i 0) false
      pure ())
    raises 64 [.assertionError] (do
      let x5 ← nthWeekdays (V := V) 2017 [{ month := 5, weekday := 1, n := 0 }] (.i 0) false
      pure ())
    pure ()) = true := by decide +kernel

/-- timeboard/tests/calendars/test_calendars_generic.py 67: `TestCalendarUtils.test_extend_weekend_saturday`. -/
example : passes (do
    let x1 ← extendWeekends (V := V) [((ts 2017 12 16), (.i 5))] "nearest" none [5, 6]
    check 70 (sameDict x1 [((ts 2017 12 16), (.i 5)), ((ts 2017 12 15), (.i 5))])
    let x2 ← extendWeekends (V := V) [((ts 2017 12 16), (.i 5))] "previous" none [5, 6]
    check 73 (sameDict x2 [((ts 2017 12 16), (.i 5)), ((ts 2017 12 15), (.i 5))])
    let x3 ← extendWeekends (V := V) [((ts 2017 12 16), (.i 5))] "next" none [5, 6]
    check 76 (sameDict x3 [((ts 2017 12 16), (.i 5)), ((ts 2017 12 18), (.i 5))])
    pure ()) = true := by decide +kernel

/-- timeboard/tests/calendars/test_calendars_generic.py 79: `TestCalendarUtils.test_extend_weekend_sunday`. -/
example : passes (do
    let x1 ← extendWeekends (V := V) [((ts 2017 12 17), (.i 5))] "nearest" none [5, 6]
    check 82 (sameDict x1 [((ts 2017 12 17), (.i 5)), ((ts 2017 12 18), (.i 5))])
    let x2 ← extendWeekends (V := V) [((ts 2017 12 17), (.i 5))] "previous" none [5, 6]
    check 85 (sameDict x2 [((ts 2017 12 17), (.i 5)), ((ts 2017 12 15), (.i 5))])
    let x3 ← extendWeekends (V := V) [((ts 2017 12 17), (.i 5))] "next" none [5, 6]
    check 88 (sameDict x3 [((ts 2017 12 17), (.i 5)), ((ts 2017 12 18), (.i 5))])
    pure ()) = true := by decide +kernel

/-- timeboard/tests/calendars/test_calendars_generic.py 91: `TestCalendarUtils.test_extend_weekend_new_label`. -/
example : passes (do
    let x1 ← extendWeekends (V := V) [((ts 2017 12 17), (.i 5))] "nearest" (some (.str "a")) [5, 6]
    check 94 (sameDict x1 [((ts 2017 12 17), (.i 5)), ((ts 2017 12 18), (.str "a"))])
    pure ()) = true := by decide +kernel

/-- timeboard/tests/calendars/test_calendars_generic.py 97: `TestCalendarUtils.test_extend_weekend_weekday`. -/
example : passes (do
    let x1 ← extendWeekends (V := V) [((ts 2017 12 15), (.i 5))] "nearest" none [5, 6]
    check 100 (sameDict x1 [((ts 2017 12 15), (.i 5))])
    pure ()) = true := by decide +kernel

/-- timeboard/tests/calendars/test_calendars_generic.py 102: `TestCalendarUtils.test_extend_weekend_weekday_already_off1`. -/
example : passes (do
    let x1 ← extendWeekends (V := V) [((ts 2017 12 17), (.i 5)), ((ts 2017 12 18), (.i 5))] "nearest" none [5, 6]
    check 105 (sameDict x1 [((ts 2017 12 17), (.i 5)), ((ts 2017 12 18), (.i 5)), ((ts 2017 12 19), (.i 5))])
    pure ()) = true := by decide +kernel

/-- timeboard/tests/calendars/test_calendars_generic.py 110: `TestCalendarUtils.test_extend_weekend_weekday_already_off2`. -/
example : passes (do
    let x1 ← extendWeekends (V := V) [((ts 2017 12 17), (.i 5)), ((ts 2017 12 15), (.i 5))] "previous" none [5, 6]
    check 113 (sameDict x1 [((ts 2017 12 14), (.i 5)), ((ts 2017 12 15), (.i 5)), ((ts 2017 12 17), (.i 5))])
    pure ()) = true := by decide +kernel

/-- timeboard/tests/calendars/test_calendars_generic.py 118: `TestCalendarUtils.test_extend_weekend_two_holidays_same_labels`. -/
example : passes (do
    let x1 ← extendWeekends (V := V) [((ts 2017 12 16), (.i 5)), ((ts 2017 12 17), (.i 5))] "nearest" none [5, 6]
    check 121 (sameDict x1 [((ts 2017 12 15), (.i 5)), ((ts 2017 12 16), (.i 5)), ((ts 2017 12 17), (.i 5)), ((ts 2017 12 18), (.i 5))])
    let x2 ← extendWeekends (V := V) [((ts 2017 12 16), (.i 5)), ((ts 2017 12 17), (.i 5))] "previous" none [5, 6]
    check 127 (sameDict x2 [((ts 2017 12 14), (.i 5)), ((ts 2017 12 15), (.i 5)), ((ts 2017 12 16), (.i 5)), ((ts 2017 12 17), (.i 5))])
    let x3 ← extendWeekends (V := V) [((ts 2017 12 16), (.i 5)), ((ts 2017 12 17), (.i 5))] "next" none [5, 6]
    check 133 (sameDict x3 [((ts 2017 12 16), (.i 5)), ((ts 2017 12 17), (.i 5)), ((ts 2017 12 18), (.i 5)), ((ts 2017 12 19), (.i 5))])
    pure ()) = true := by decide +kernel

/-- timeboard/tests/calendars/test_calendars_generic.py 139: `TestCalendarUtils.test_extend_weekend_two_holidays_new_label`. -/
example : passes (do
    let x1 ← extendWeekends (V := V) [((ts 2017 12 16), (.i 5)), ((ts 2017 12 17), (.i 5))] "nearest" (some (.i 0)) [5, 6]
    check 142 (sameDict x1 [((ts 2017 12 15), (.i 0)), ((ts 2017 12 16), (.i 5)), ((ts 2017 12 17), (.i 5)), ((ts 2017 12 18), (.i 0))])
    let x2 ← extendWeekends (V := V) [((ts 2017 12 16), (.i 5)), ((ts 2017 12 17), (.i 5))] "previous" (some (.i 0)) [5, 6]
    check 147 (sameDict x2 [((ts 2017 12 14), (.i 0)), ((ts 2017 12 15), (.i 0)), ((ts 2017 12 16), (.i 5)), ((ts 2017 12 17), (.i 5))])
    let x3 ← extendWeekends (V := V) [((ts 2017 12 16), (.i 5)), ((ts 2017 12 17), (.i 5))] "next" (some (.i 0)) [5, 6]
    check 153 (sameDict x3 [((ts 2017 12 16), (.i 5)), ((ts 2017 12 17), (.i 5)), ((ts 2017 12 18), (.i 0)), ((ts 2017 12 19), (.i 0))])
    pure ()) = true := by decide +kernel

/-- timeboard/tests/calendars/test_calendars_generic.py 158: `TestCalendarUtils.test_extend_weekend_two_holidays_diff_labels`. -/
example : passes (do
    let x1 ← extendWeekends (V := V) [((ts 2017 12 16), (.i 3)), ((ts 2017 12 17), (.i 5))] "nearest" none [5, 6]
    check 161 (sameDict x1 [((ts 2017 12 15), (.i 3)), ((ts 2017 12 16), (.i 3)), ((ts 2017 12 17), (.i 5)), ((ts 2017 12 18), (.i 5))])
    let x2 ← extendWeekends (V := V) [((ts 2017 12 16), (.i 3)), ((ts 2017 12 17), (.i 5))] "previous" none [5, 6]
    check 166 (sameDict x2 [((ts 2017 12 14), (.i 5)), ((ts 2017 12 15), (.i 3)), ((ts 2017 12 16), (.i 3)), ((ts 2017 12 17), (.i 5))])
    let x3 ← extendWeekends (V := V) [((ts 2017 12 16), (.i 3)), ((ts 2017 12 17), (.i 5))] "next" none [5, 6]
    check 172 (sameDict x3 [((ts 2017 12 16), (.i 3)), ((ts 2017 12 17), (.i 5)), ((ts 2017 12 18), (.i 3)), ((ts 2017 12 19), (.i 5))])
    pure ()) = true := by decide +kernel

/-- timeboard/tests/calendars/test_calendars_generic.py 177: `TestCalendarUtils.test_extend_weekend_strange_weekend`. -/
example : passes (do
    let x1 ← extendWeekends (V := V) [((ts 2017 12 16), (.i 5))] "nearest" none [5]
    check 181 (sameDict x1 [((ts 2017 12 16), (.i 5)), ((ts 2017 12 17), (.i 5))])
    let x2 ← extendWeekends (V := V) [((ts 2017 12 16), (.i 5))] "next" none [5, 6, 0]
    check 184 (sameDict x2 [((ts 2017 12 16), (.i 5)), ((ts 2017 12 19), (.i 5))])
    let x3 ← extendWeekends (V := V) [((ts 2017 12 16), (.i 5))] "previous" none [3, 4, 5]
    check 187 (sameDict x3 [((ts 2017 12 13), (.i 5)), ((ts 2017 12 16), (.i 5))])
    let x4 ← extendWeekends (V := V) [((ts 2017 12 16), (.i 5))] "nearest" none []
    check 190 (sameDict x4 [((ts 2017 12 16), (.i 5))])
    pure ()) = true := by decide +kernel

/-- timeboard/tests/calendars/test_calendars_generic.py 192: `TestCalendarUtils.test_from_easter`. -/
example : passes (do
    check 193 (sameDict (easterDates (V := V) false 2017 [0, 1, (-2)] (.i 0)) [((ts 2017 4 16), (.i 0)), ((ts 2017 4 17), (.i 0)), ((ts 2017 4 14), (.i 0))])
    check 198 (sameDict (easterDates (V := V) true 2017 [1] (.i 5)) [((ts 2017 4 17), (.i 5))])
    check 200 (sameDict (easterDates (V := V) false 2000 [0] (.i 0)) [((ts 2000 4 23), (.i 0))])
    check 201 (sameDict (easterDates (V := V) true 2000 [0] (.i 0)) [((ts 2000 4 30), (.i 0))])
    check 203 (sameDict (easterDates (V := V) false 2000 [] (.i 0)) [])
    pure ()) = true := by decide +kernel

/- timeboard/tests/calendars/test_calendars_generic.py 207: `TestCalendarBase.test_calendar_base`. -/
#guard passes (do
    let x1 ← (calendarBase.amend 0 0 none).map (fun d => d.map (fun x => (x.1, V.i x.2)))
    check 208 (sameDict x1 [])
    let x2 ← (calendarBase.new none none false false none (fun _ => Cycle.start [])).map Prod.fst
    check 213 (decide (x2.startTime = (Period.ofTime (⟨none, .D, by decide⟩ : Freq) (ts 2001 1 1)).startTime))
    check 214 (decide (x2.endTime = (Period.ofTime (⟨none, .D, by decide⟩ : Freq) (ts 2030 12 31)).endTime))
    let x3 ← x2.getInterval none none none true "11" none
    let x4 ← x3.count x2 .on none
    check 216 (decide (x4 = 10957))
    pure ())

/- timeboard/tests/calendars/test_calendars_generic.py 218: `TestCalendarBase.test_calendar_base_custom_limits`. -/
#guard passes (do
    let x1 ← (calendarBase.new (some (ts 2017 1 1)) (some (ts 2018 12 31)) false false none (fun _ => Cycle.start [])).map Prod.fst
    let x2 ← x1.getInterval none none none true "11" none
    let x3 ← x2.count x1 .on none
    check 221 (decide (x3 = 730))
    pure ())

/- timeboard/tests/calendars/test_calendars_generic.py 223: `TestCalendarBase.test_calendar_base_custom_amds`. -/
#guard passes (do
    let x1 ← (calendarBase.new (some (ts 2017 1 1)) (some (ts 2018 12 31)) false false (some [((ts 2017 3 1), 0), ((ts 2019 3 1), 0)]) (fun _ => Cycle.start [])).map Prod.fst
    let x2 ← x1.getInterval none none none true "11" none
    let x3 ← x2.count x1 .on none
    check 230 (decide (x3 = 729))
    pure ())

/- timeboard/tests/calendars/test_calendars_generic.py 232: `TestCalendarBase.test_calendat_base_OOB`. -/
#guard passes (do
    raises 235 [.outOfBounds] (do
      let x1 ← (calendarBase.new (some (ts 2000 12 31)) none false false none (fun _ => Cycle.start [])).map Prod.fst
      pure ())
    raises 237 [.outOfBounds] (do
      let x2 ← (calendarBase.new none (some (ts 2031 1 1)) false false none (fun _ => Cycle.start [])).map Prod.fst
      pure ())
    pure ())

end TB.Conf
