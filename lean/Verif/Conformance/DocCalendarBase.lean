import Verif.Conformance.Support
/-!
# Examples of `timeboard/calendars/calendarbase.py`

Generated by `tools/doc_examples.py`.  One example per session of the documentation: the printed results are those
of the model.  These are checks of the model on single inputs, not proofs of properties.
-/
set_option linter.unusedVariables false
set_option maxRecDepth 8192
namespace TB.Conf

/-- timeboard/calendars/calendarbase.py 47: results at lines 47, 181. -/
example : passes (do
    let x1 ← nthWeekdays (V := V) 2017 [{ month := 5, weekday := 1, n := (-1) }, { month := 9, weekday := 1, n := 1 }] (.i 0) false
    check 47 (sameDict x1 [((ts 2017 5 29), (.i 0)), ((ts 2017 9 4), (.i 0))])
    check 181 (sameDict (easterDates (V := V) false 2017 [(-2), 1] (.i 0)) [((ts 2017 4 14), (.i 0)), ((ts 2017 4 17), (.i 0))])
    pure ()) = true := by decide +kernel

end TB.Conf
