import Verif.Conformance.Support
/-!
# `timeboard/tests/test_workshift.py`

Generated by `tools/conformance.py`.  One example per unit test: the statements of the test, performed by the
model, succeed.  These are checks of the model on single inputs, not proofs of properties.
-/
set_option linter.unusedVariables false
namespace TB.Conf

/-- timeboard/tests/test_workshift.py 20: `TestWorkshiftConstructor.test_locate`. -/
example : passes (do
    let (x1, x2) ← Timeboard.new (L := V) { freq := (⟨none, .D, by decide⟩ : Freq), start := (ts 2016 12 31), stop := (ts 2017 1 12), layout := .pattern (.list [(.i 0), (.i 1), (.i 0), (.i 0), (.i 2), (.i 0)]), selector := V.truthy, defaultLabel := V.none } (noHeap : Heap V)
    let x3 ← x1.locate (ts 2017 1 4)
    check 23 (decide (x3 = { pos := some 4, side := 0 }))
    pure ()) = true := by decide +kernel

/-- timeboard/tests/test_workshift.py 25: `TestWorkshiftConstructor.test_locate_outside`. -/
example : passes (do
    let (x1, x2) ← Timeboard.new (L := V) { freq := (⟨none, .D, by decide⟩ : Freq), start := (ts 2016 12 31), stop := (ts 2017 1 12), layout := .pattern (.list [(.i 0), (.i 1), (.i 0), (.i 0), (.i 2), (.i 0)]), selector := V.truthy, defaultLabel := V.none } (noHeap : Heap V)
    let x3 ← x1.locate (ts 2017 1 13)
    check 28 (decide (x3 = { pos := none, side := 1 }))
    let x4 ← x1.locate (ts 2016 12 30)
    check 30 (decide (x4 = { pos := none, side := (-1) }))
    pure ()) = true := by decide +kernel

/-- timeboard/tests/test_workshift.py 40: `TestWorkshiftConstructor.test_workshift_constructor`. -/
example : passes (do
    let (x1, x2) ← Timeboard.new (L := V) { freq := (⟨none, .D, by decide⟩ : Freq), start := (ts 2016 12 31), stop := (ts 2017 1 12), layout := .pattern (.list [(.i 0), (.i 1), (.i 0), (.i 0), (.i 2), (.i 0)]), selector := V.truthy, defaultLabel := V.none } (noHeap : Heap V)
    let x3 ← x1.getWorkshift (ts 2017 1 4) none
    check 43 (decide (x3.loc = 4))
    let x4 ← x3.startTime x1
    check 44 (decide (x4 = (ts 2017 1 4)))
    let x5 ← x3.endTime x1
    check 45 (decide (x5 > (ts 2017 1 4 23 59 59)))
    let x6 ← x3.endTime x1
    check 46 (decide (x6 < (ts 2017 1 5)))
    check 47 (decide (x3.label = (.i 2)))
    check 48 (decide (x3.schedule.name = x1.defaultSchedule.name ∧ x3.schedule.onIdx = x1.defaultSchedule.onIdx))
    let x7 ← x3.isOnDuty x1 none
    check 49 (x7)
    let x8 ← x3.isOffDuty x1 none
    check 50 (!(x8))
    let x9 ← x3.duration x1
    check 51 (decide (x9 = 1))
    let x10 ← x1.call1 (.point (ts 2017 1 4))
    let x11 ← asWs x10
    check 54 (decide (x11.loc = x3.loc))
    pure ()) = true := by decide +kernel

/-- timeboard/tests/test_workshift.py 56: `TestWorkshiftConstructor.test_workshift_constructor_from_ts`. -/
example : passes (do
    let (x1, x2) ← Timeboard.new (L := V) { freq := (⟨none, .D, by decide⟩ : Freq), start := (ts 2016 12 31), stop := (ts 2017 1 12), layout := .pattern (.list [(.i 0), (.i 1), (.i 0), (.i 0), (.i 2), (.i 0)]), selector := V.truthy, defaultLabel := V.none } (noHeap : Heap V)
    let x3 ← x1.getWorkshift (ts 2017 1 4 15) none
    check 59 (decide (x3.loc = 4))
    let x4 ← x3.startTime x1
    check 60 (decide (x4 = (ts 2017 1 4)))
    let x5 ← x3.endTime x1
    check 61 (decide (x5 > (ts 2017 1 4 23 59 59)))
    let x6 ← x3.endTime x1
    check 62 (decide (x6 < (ts 2017 1 5)))
    check 63 (decide (x3.label = (.i 2)))
    check 64 (decide (x3.schedule.name = x1.defaultSchedule.name ∧ x3.schedule.onIdx = x1.defaultSchedule.onIdx))
    let x7 ← x3.isOnDuty x1 none
    check 65 (x7)
    let x8 ← x3.isOffDuty x1 none
    check 66 (!(x8))
    let x9 ← x3.duration x1
    check 67 (decide (x9 = 1))
    let x10 ← x1.call1 (.point (ts 2017 1 4 15))
    let x11 ← asWs x10
    check 70 (decide (x11.loc = x3.loc))
    pure ()) = true := by decide +kernel

/-- timeboard/tests/test_workshift.py 72: `TestWorkshiftConstructor.test_workshift_constructor_from_datetime`. -/
example : passes (do
    let (x1, x2) ← Timeboard.new (L := V) { freq := (⟨none, .D, by decide⟩ : Freq), start := (ts 2016 12 31), stop := (ts 2017 1 12), layout := .pattern (.list [(.i 0), (.i 1), (.i 0), (.i 0), (.i 2), (.i 0)]), selector := V.truthy, defaultLabel := V.none } (noHeap : Heap V)
    let x3 ← x1.getWorkshift (ts 2017 1 4 15) none
    check 75 (decide (x3.loc = 4))
    let x4 ← x3.startTime x1
    check 76 (decide (x4 = (ts 2017 1 4)))
    let x5 ← x3.endTime x1
    check 77 (decide (x5 > (ts 2017 1 4 23 59 59)))
    let x6 ← x3.endTime x1
    check 78 (decide (x6 < (ts 2017 1 5)))
    check 79 (decide (x3.label = (.i 2)))
    check 80 (decide (x3.schedule.name = x1.defaultSchedule.name ∧ x3.schedule.onIdx = x1.defaultSchedule.onIdx))
    let x7 ← x3.isOnDuty x1 none
    check 81 (x7)
    let x8 ← x3.isOffDuty x1 none
    check 82 (!(x8))
    let x9 ← x3.duration x1
    check 83 (decide (x9 = 1))
    let x10 ← x1.call1 (.point (ts 2017 1 4 15))
    let x11 ← asWs x10
    check 86 (decide (x11.loc = x3.loc))
    pure ()) = true := by decide +kernel

/-- timeboard/tests/test_workshift.py 88: `TestWorkshiftConstructor.test_workshift_constructor_from_pd_period`. -/
example : passes (do
    let (x1, x2) ← Timeboard.new (L := V) { freq := (⟨none, .D, by decide⟩ : Freq), start := (ts 2016 12 31), stop := (ts 2017 1 12), layout := .pattern (.list [(.i 0), (.i 1), (.i 0), (.i 0), (.i 2), (.i 0)]), selector := V.truthy, defaultLabel := V.none } (noHeap : Heap V)
    let x3 ← x1.getWorkshift (Period.ofTime (⟨none, .W none, by decide⟩ : Freq) (ts 2017 1 5)).startTime none
    check 92 (decide (x3.loc = 2))
    let x4 ← x3.startTime x1
    check 93 (decide (x4 = (ts 2017 1 2)))
    let x5 ← x3.endTime x1
    check 94 (decide (x5 > (ts 2017 1 2 23 59 59)))
    let x6 ← x3.endTime x1
    check 95 (decide (x6 < (ts 2017 1 3)))
    check 96 (decide (x3.label = (.i 0)))
    check 97 (decide (x3.schedule.name = x1.defaultSchedule.name ∧ x3.schedule.onIdx = x1.defaultSchedule.onIdx))
    let x7 ← x3.isOnDuty x1 none
    check 98 (!(x7))
    let x8 ← x3.isOffDuty x1 none
    check 99 (x8)
    let x9 ← x3.duration x1
    check 100 (decide (x9 = 1))
    let x10 ← x1.call1 (.period (Period.ofTime (⟨none, .W none, by decide⟩ : Freq) (ts 2017 1 5)))
    let x11 ← asWs x10
    check 103 (decide (x11.loc = x3.loc))
    pure ()) = true := by decide +kernel

/-- timeboard/tests/test_workshift.py 105: `TestWorkshiftConstructor.test_workshift_constructor_date_outside`. -/
example : passes (do
    let (x1, x2) ← Timeboard.new (L := V) { freq := (⟨none, .D, by decide⟩ : Freq), start := (ts 2016 12 31), stop := (ts 2017 1 12), layout := .pattern (.list [(.i 0), (.i 1), (.i 0), (.i 0), (.i 2), (.i 0)]), selector := V.truthy, defaultLabel := V.none } (noHeap : Heap V)
    raises 107 [.outOfBounds] (do
      let x3 ← x1.call1 (.point (ts 2017 1 14))
      let x4 ← asWs x3
      pure ())
    pure ()) = true := by decide +kernel

/-- timeboard/tests/test_workshift.py 110: `TestWorkshiftConstructor.test_direct_workshift_constructor`. -/
example : passes (do
    let (x1, x2) ← Timeboard.new (L := V) { freq := (⟨none, .D, by decide⟩ : Freq), start := (ts 2016 12 31), stop := (ts 2017 1 12), layout := .pattern (.list [(.i 0), (.i 1), (.i 0), (.i 0), (.i 2), (.i 0)]), selector := V.truthy, defaultLabel := V.none } (noHeap : Heap V)
    let x3 ← Workshift.new x1 4 none
    check 113 (decide (x3.loc = 4))
    let x4 ← x3.startTime x1
    check 114 (decide (x4 = (ts 2017 1 4)))
    let x5 ← x3.endTime x1
    check 115 (decide (x5 > (ts 2017 1 4 23 59 59)))
    let x6 ← x3.endTime x1
    check 116 (decide (x6 < (ts 2017 1 5)))
    check 117 (decide (x3.label = (.i 2)))
    check 118 (decide (x3.schedule.name = x1.defaultSchedule.name ∧ x3.schedule.onIdx = x1.defaultSchedule.onIdx))
    let x7 ← x3.isOnDuty x1 none
    check 119 (x7)
    let x8 ← x3.isOffDuty x1 none
    check 120 (!(x8))
    let x9 ← x3.duration x1
    check 121 (decide (x9 = 1))
    pure ()) = true := by decide +kernel

/-- timeboard/tests/test_workshift.py 123: `TestWorkshiftConstructor.test_direct_workshift_constructor_with_bad_loc`. Left out (arguments which the model cannot express): lines 130, 132. -/
example : passes (do
    let (x1, x2) ← Timeboard.new (L := V) { freq := (⟨none, .D, by decide⟩ : Freq), start := (ts 2016 12 31), stop := (ts 2017 1 12), layout := .pattern (.list [(.i 0), (.i 1), (.i 0), (.i 0), (.i 2), (.i 0)]), selector := V.truthy, defaultLabel := V.none } (noHeap : Heap V)
    let x3 ← Workshift.new x1 (-1) (some x1.defaultSchedule)
    let x4 ← x3.toTimestamp x1
    raises 128 [.outOfBounds] (do
      let x5 ← Workshift.new x1 500000000 (some x1.defaultSchedule)
      pure ())
    pure ()) = true := by decide +kernel

/-- timeboard/tests/test_workshift.py 138: `TestRollForward.test_rollforward_trivial_0_to_self`. -/
example : passes (do
    let (x1, x2) ← Timeboard.new (L := V) { freq := (⟨none, .D, by decide⟩ : Freq), start := (ts 2016 12 31), stop := (ts 2017 1 12), layout := .pattern (.list [(.i 0), (.i 1), (.i 0), (.i 0), (.i 2), (.i 0)]), selector := V.truthy, defaultLabel := V.none } (noHeap : Heap V)
    let x3 ← x1.call1 (.point (ts 2017 1 4))
    let x4 ← asWs x3
    let x5 ← x4.rollforward x1 0 .on none
    check 142 (decide (x5.loc = 4))
    pure ()) = true := by decide +kernel

/-- timeboard/tests/test_workshift.py 145: `TestRollForward.test_rollforward_trivial_0_to_next`. -/
example : passes (do
    let (x1, x2) ← Timeboard.new (L := V) { freq := (⟨none, .D, by decide⟩ : Freq), start := (ts 2016 12 31), stop := (ts 2017 1 12), layout := .pattern (.list [(.i 0), (.i 1), (.i 0), (.i 0), (.i 2), (.i 0)]), selector := V.truthy, defaultLabel := V.none } (noHeap : Heap V)
    let x3 ← x1.call1 (.point (ts 2016 12 31))
    let x4 ← asWs x3
    let x5 ← x4.rollforward x1 0 .on none
    check 149 (decide (x5.loc = 1))
    pure ()) = true := by decide +kernel

/-- timeboard/tests/test_workshift.py 151: `TestRollForward.test_rollforward_on_0`. -/
example : passes (do
    let (x1, x2) ← Timeboard.new (L := V) { freq := (⟨none, .D, by decide⟩ : Freq), start := (ts 2016 12 31), stop := (ts 2017 1 12), layout := .pattern (.list [(.i 0), (.i 1), (.i 0), (.i 0), (.i 2), (.i 0)]), selector := V.truthy, defaultLabel := V.none } (noHeap : Heap V)
    let x3 ← x1.call1 (.point (ts 2017 1 1))
    let x4 ← asWs x3
    let x5 ← x4.rollforward x1 0 .on none
    let x6 ← x4.rollforward x1 0 .off none
    let x7 ← x4.rollforward x1 0 .same none
    let x8 ← x4.rollforward x1 0 .alt none
    let x9 ← x4.rollforward x1 0 .any none
    check 157 ((decide (x5.loc = 1)) && (decide (x6.loc = 2)) && (decide (x7.loc = 1)) && (decide (x8.loc = 2)) && (decide (x9.loc = 1)))
    pure ()) = true := by decide +kernel

/-- timeboard/tests/test_workshift.py 159: `TestRollForward.test_rollforward_off_0`. -/
example : passes (do
    let (x1, x2) ← Timeboard.new (L := V) { freq := (⟨none, .D, by decide⟩ : Freq), start := (ts 2016 12 31), stop := (ts 2017 1 12), layout := .pattern (.list [(.i 0), (.i 1), (.i 0), (.i 0), (.i 2), (.i 0)]), selector := V.truthy, defaultLabel := V.none } (noHeap : Heap V)
    let x3 ← x1.call1 (.point (ts 2017 1 2))
    let x4 ← asWs x3
    let x5 ← x4.rollforward x1 0 .on none
    let x6 ← x4.rollforward x1 0 .off none
    let x7 ← x4.rollforward x1 0 .same none
    let x8 ← x4.rollforward x1 0 .alt none
    let x9 ← x4.rollforward x1 0 .any none
    check 165 ((decide (x5.loc = 4)) && (decide (x6.loc = 2)) && (decide (x7.loc = 2)) && (decide (x8.loc = 4)) && (decide (x9.loc = 2)))
    pure ()) = true := by decide +kernel

/-- timeboard/tests/test_workshift.py 167: `TestRollForward.test_rollforward_off_0_after_last_on_element`. Left out (arguments which the model cannot express): line 172. -/
example : passes (do
    let (x1, x2) ← Timeboard.new (L := V) { freq := (⟨none, .D, by decide⟩ : Freq), start := (ts 2016 12 31), stop := (ts 2017 1 12), layout := .pattern (.list [(.i 0), (.i 1), (.i 0), (.i 0), (.i 2), (.i 0)]), selector := V.truthy, defaultLabel := V.none } (noHeap : Heap V)
    let x3 ← x1.call1 (.point (ts 2017 1 11))
    let x4 ← asWs x3
    let x5 ← x4.rollforward x1 0 .off none
    check 170 (decide (x5.loc = 11))
    let x6 ← x4.rollforward x1 0 .any none
    check 171 (decide (x6.loc = 11))
    pure ()) = true := by decide +kernel

/-- timeboard/tests/test_workshift.py 175: `TestRollForward.test_rollforward_on_n`. -/
example : passes (do
    let (x1, x2) ← Timeboard.new (L := V) { freq := (⟨none, .D, by decide⟩ : Freq), start := (ts 2016 12 31), stop := (ts 2017 1 12), layout := .pattern (.list [(.i 0), (.i 1), (.i 0), (.i 0), (.i 2), (.i 0)]), selector := V.truthy, defaultLabel := V.none } (noHeap : Heap V)
    let x3 ← x1.call1 (.point (ts 2017 1 4))
    let x4 ← asWs x3
    let x5 ← x4.rollforward x1 2 .on none
    let x6 ← x4.rollforward x1 2 .off none
    let x7 ← x4.rollforward x1 2 .same none
    let x8 ← x4.rollforward x1 2 .alt none
    let x9 ← x4.rollforward x1 2 .any none
    check 181 ((decide (x5.loc = 10)) && (decide (x6.loc = 8)) && (decide (x7.loc = 10)) && (decide (x8.loc = 8)) && (decide (x9.loc = 6)))
    pure ()) = true := by decide +kernel

/-- timeboard/tests/test_workshift.py 183: `TestRollForward.test_rollforward_off_n`. -/
example : passes (do
    let (x1, x2) ← Timeboard.new (L := V) { freq := (⟨none, .D, by decide⟩ : Freq), start := (ts 2016 12 31), stop := (ts 2017 1 12), layout := .pattern (.list [(.i 0), (.i 1), (.i 0), (.i 0), (.i 2), (.i 0)]), selector := V.truthy, defaultLabel := V.none } (noHeap : Heap V)
    let x3 ← x1.call1 (.point (ts 2017 1 3))
    let x4 ← asWs x3
    let x5 ← x4.rollforward x1 2 .on none
    let x6 ← x4.rollforward x1 2 .off none
    let x7 ← x4.rollforward x1 2 .same none
    let x8 ← x4.rollforward x1 2 .alt none
    let x9 ← x4.rollforward x1 2 .any none
    check 189 ((decide (x5.loc = 10)) && (decide (x6.loc = 6)) && (decide (x7.loc = 6)) && (decide (x8.loc = 10)) && (decide (x9.loc = 5)))
    pure ()) = true := by decide +kernel

/-- timeboard/tests/test_workshift.py 191: `TestRollForward.test_rollforward_on_n_negative`. -/
example : passes (do
    let (x1, x2) ← Timeboard.new (L := V) { freq := (⟨none, .D, by decide⟩ : Freq), start := (ts 2016 12 31), stop := (ts 2017 1 12), layout := .pattern (.list [(.i 0), (.i 1), (.i 0), (.i 0), (.i 2), (.i 0)]), selector := V.truthy, defaultLabel := V.none } (noHeap : Heap V)
    let x3 ← x1.call1 (.point (ts 2017 1 10))
    let x4 ← asWs x3
    let x5 ← x4.rollforward x1 (-2) .on none
    let x6 ← x4.rollforward x1 (-2) .off none
    let x7 ← x4.rollforward x1 (-2) .same none
    let x8 ← x4.rollforward x1 (-2) .alt none
    let x9 ← x4.rollforward x1 (-2) .any none
    check 197 ((decide (x5.loc = 4)) && (decide (x6.loc = 8)) && (decide (x7.loc = 4)) && (decide (x8.loc = 8)) && (decide (x9.loc = 8)))
    pure ()) = true := by decide +kernel

/-- timeboard/tests/test_workshift.py 199: `TestRollForward.test_rollforward_off_n_negative`. -/
example : passes (do
    let (x1, x2) ← Timeboard.new (L := V) { freq := (⟨none, .D, by decide⟩ : Freq), start := (ts 2016 12 31), stop := (ts 2017 1 12), layout := .pattern (.list [(.i 0), (.i 1), (.i 0), (.i 0), (.i 2), (.i 0)]), selector := V.truthy, defaultLabel := V.none } (noHeap : Heap V)
    let x3 ← x1.call1 (.point (ts 2017 1 8))
    let x4 ← asWs x3
    let x5 ← x4.rollforward x1 (-2) .on none
    let x6 ← x4.rollforward x1 (-2) .off none
    let x7 ← x4.rollforward x1 (-2) .same none
    let x8 ← x4.rollforward x1 (-2) .alt none
    let x9 ← x4.rollforward x1 (-2) .any none
    check 205 ((decide (x5.loc = 4)) && (decide (x6.loc = 5)) && (decide (x7.loc = 5)) && (decide (x8.loc = 4)) && (decide (x9.loc = 6)))
    pure ()) = true := by decide +kernel

/-- timeboard/tests/test_workshift.py 207: `TestRollForward.test_rollforward_off_n_negative_after_last_on_element`. -/
example : passes (do
    let (x1, x2) ← Timeboard.new (L := V) { freq := (⟨none, .D, by decide⟩ : Freq), start := (ts 2016 12 31), stop := (ts 2017 1 12), layout := .pattern (.list [(.i 0), (.i 1), (.i 0), (.i 0), (.i 2), (.i 0)]), selector := V.truthy, defaultLabel := V.none } (noHeap : Heap V)
    let x3 ← x1.call1 (.point (ts 2017 1 12))
    let x4 ← asWs x3
    let x5 ← x4.rollforward x1 (-2) .off none
    check 210 (decide (x5.loc = 9))
    let x6 ← x4.rollforward x1 (-2) .any none
    check 211 (decide (x6.loc = 10))
    raises 212 [.outOfBounds] (do
      let x7 ← x4.rollforward x1 (-2) .on none
      pure ())
    pure ()) = true := by decide +kernel

/-- timeboard/tests/test_workshift.py 215: `TestRollForward.test_rollforward_n_off_limits`. -/
example : passes (do
    let (x1, x2) ← Timeboard.new (L := V) { freq := (⟨none, .D, by decide⟩ : Freq), start := (ts 2016 12 31), stop := (ts 2017 1 12), layout := .pattern (.list [(.i 0), (.i 1), (.i 0), (.i 0), (.i 2), (.i 0)]), selector := V.truthy, defaultLabel := V.none } (noHeap : Heap V)
    raises 217 [.outOfBounds] (do
      let x3 ← x1.call1 (.point (ts 2017 1 10))
      let x4 ← asWs x3
      let x5 ← x4.rollforward x1 1 .on none
      pure ())
    pure ()) = true := by decide +kernel

/-- timeboard/tests/test_workshift.py 220: `TestRollForward.test_rollforward_alt_off_limits`. -/
example : passes (do
    let (x1, x2) ← Timeboard.new (L := V) { freq := (⟨none, .D, by decide⟩ : Freq), start := (ts 2016 12 31), stop := (ts 2017 1 12), layout := .pattern (.list [(.i 0), (.i 1), (.i 0), (.i 0), (.i 2), (.i 0)]), selector := V.truthy, defaultLabel := V.none } (noHeap : Heap V)
    raises 222 [.outOfBounds] (do
      let x3 ← x1.call1 (.point (ts 2017 1 11))
      let x4 ← asWs x3
      let x5 ← x4.rollforward x1 0 .alt none
      pure ())
    pure ()) = true := by decide +kernel

/-- timeboard/tests/test_workshift.py 225: `TestRollForward.test_rollforward_n_negative_off_limits`. -/
example : passes (do
    let (x1, x2) ← Timeboard.new (L := V) { freq := (⟨none, .D, by decide⟩ : Freq), start := (ts 2016 12 31), stop := (ts 2017 1 12), layout := .pattern (.list [(.i 0), (.i 1), (.i 0), (.i 0), (.i 2), (.i 0)]), selector := V.truthy, defaultLabel := V.none } (noHeap : Heap V)
    raises 227 [.outOfBounds] (do
      let x3 ← x1.call1 (.point (ts 2017 1 1))
      let x4 ← asWs x3
      let x5 ← x4.rollforward x1 (-1) .on none
      pure ())
    pure ()) = true := by decide +kernel

/-- timeboard/tests/test_workshift.py 230: `TestRollForward.test_rollforward_no_such_duty`. -/
example : passes (do
    let (x1, x2) ← Timeboard.new (L := V) { freq := (⟨none, .D, by decide⟩ : Freq), start := (ts 2016 12 31), stop := (ts 2017 1 12), layout := .pattern (.list [(.i 0)]), selector := V.truthy, defaultLabel := V.none } (noHeap : Heap V)
    raises 234 [.outOfBounds] (do
      let x3 ← x1.call1 (.point (ts 2016 12 31))
      let x4 ← asWs x3
      let x5 ← x4.rollforward x1 0 .on none
      pure ())
    pure ()) = true := by decide +kernel

/-- timeboard/tests/test_workshift.py 245: `TestRollBack.test_rollback_trivial_0_to_self`. -/
example : passes (do
    let (x1, x2) ← Timeboard.new (L := V) { freq := (⟨none, .D, by decide⟩ : Freq), start := (ts 2016 12 31), stop := (ts 2017 1 12), layout := .pattern (.list [(.i 0), (.i 1), (.i 0), (.i 0), (.i 2), (.i 0)]), selector := V.truthy, defaultLabel := V.none } (noHeap : Heap V)
    let x3 ← x1.call1 (.point (ts 2017 1 4))
    let x4 ← asWs x3
    let x5 ← x4.rollback x1 0 .on none
    check 249 (decide (x5.loc = 4))
    pure ()) = true := by decide +kernel

/-- timeboard/tests/test_workshift.py 252: `TestRollBack.test_rollback_trivial_0_to_next`. -/
example : passes (do
    let (x1, x2) ← Timeboard.new (L := V) { freq := (⟨none, .D, by decide⟩ : Freq), start := (ts 2016 12 31), stop := (ts 2017 1 12), layout := .pattern (.list [(.i 0), (.i 1), (.i 0), (.i 0), (.i 2), (.i 0)]), selector := V.truthy, defaultLabel := V.none } (noHeap : Heap V)
    let x3 ← x1.call1 (.point (ts 2017 1 2))
    let x4 ← asWs x3
    let x5 ← x4.rollback x1 0 .on none
    check 256 (decide (x5.loc = 1))
    pure ()) = true := by decide +kernel

/-- timeboard/tests/test_workshift.py 258: `TestRollBack.test_rollback_on_0`. -/
example : passes (do
    let (x1, x2) ← Timeboard.new (L := V) { freq := (⟨none, .D, by decide⟩ : Freq), start := (ts 2016 12 31), stop := (ts 2017 1 12), layout := .pattern (.list [(.i 0), (.i 1), (.i 0), (.i 0), (.i 2), (.i 0)]), selector := V.truthy, defaultLabel := V.none } (noHeap : Heap V)
    let x3 ← x1.call1 (.point (ts 2017 1 1))
    let x4 ← asWs x3
    let x5 ← x4.rollback x1 0 .on none
    let x6 ← x4.rollback x1 0 .off none
    let x7 ← x4.rollback x1 0 .same none
    let x8 ← x4.rollback x1 0 .alt none
    let x9 ← x4.rollback x1 0 .any none
    check 264 ((decide (x5.loc = 1)) && (decide (x6.loc = 0)) && (decide (x7.loc = 1)) && (decide (x8.loc = 0)) && (decide (x9.loc = 1)))
    pure ()) = true := by decide +kernel

/-- timeboard/tests/test_workshift.py 266: `TestRollBack.test_rollback_off_0`. -/
example : passes (do
    let (x1, x2) ← Timeboard.new (L := V) { freq := (⟨none, .D, by decide⟩ : Freq), start := (ts 2016 12 31), stop := (ts 2017 1 12), layout := .pattern (.list [(.i 0), (.i 1), (.i 0), (.i 0), (.i 2), (.i 0)]), selector := V.truthy, defaultLabel := V.none } (noHeap : Heap V)
    let x3 ← x1.call1 (.point (ts 2017 1 12))
    let x4 ← asWs x3
    let x5 ← x4.rollback x1 0 .on none
    let x6 ← x4.rollback x1 0 .off none
    let x7 ← x4.rollback x1 0 .same none
    let x8 ← x4.rollback x1 0 .alt none
    let x9 ← x4.rollback x1 0 .any none
    check 272 ((decide (x5.loc = 10)) && (decide (x6.loc = 12)) && (decide (x7.loc = 12)) && (decide (x8.loc = 10)) && (decide (x9.loc = 12)))
    pure ()) = true := by decide +kernel

/-- timeboard/tests/test_workshift.py 274: `TestRollBack.test_rollback_off_0_at_first_element`. -/
example : passes (do
    let (x1, x2) ← Timeboard.new (L := V) { freq := (⟨none, .D, by decide⟩ : Freq), start := (ts 2016 12 31), stop := (ts 2017 1 12), layout := .pattern (.list [(.i 0), (.i 1), (.i 0), (.i 0), (.i 2), (.i 0)]), selector := V.truthy, defaultLabel := V.none } (noHeap : Heap V)
    let x3 ← x1.call1 (.point (ts 2016 12 31))
    let x4 ← asWs x3
    let x5 ← x4.rollback x1 0 .off none
    check 277 (decide (x5.loc = 0))
    let x6 ← x4.rollback x1 0 .any none
    check 278 (decide (x6.loc = 0))
    raises 279 [.outOfBounds] (do
      let x7 ← x4.rollback x1 0 .on none
      pure ())
    pure ()) = true := by decide +kernel

/-- timeboard/tests/test_workshift.py 282: `TestRollBack.test_rollback_on_n`. -/
example : passes (do
    let (x1, x2) ← Timeboard.new (L := V) { freq := (⟨none, .D, by decide⟩ : Freq), start := (ts 2016 12 31), stop := (ts 2017 1 12), layout := .pattern (.list [(.i 0), (.i 1), (.i 0), (.i 0), (.i 2), (.i 0)]), selector := V.truthy, defaultLabel := V.none } (noHeap : Heap V)
    let x3 ← x1.call1 (.point (ts 2017 1 10))
    let x4 ← asWs x3
    let x5 ← x4.rollback x1 2 .on none
    let x6 ← x4.rollback x1 2 .off none
    let x7 ← x4.rollback x1 2 .same none
    let x8 ← x4.rollback x1 2 .alt none
    let x9 ← x4.rollback x1 2 .any none
    check 288 ((decide (x5.loc = 4)) && (decide (x6.loc = 6)) && (decide (x7.loc = 4)) && (decide (x8.loc = 6)) && (decide (x9.loc = 8)))
    pure ()) = true := by decide +kernel

/-- timeboard/tests/test_workshift.py 290: `TestRollBack.test_rollback_off_n`. -/
example : passes (do
    let (x1, x2) ← Timeboard.new (L := V) { freq := (⟨none, .D, by decide⟩ : Freq), start := (ts 2016 12 31), stop := (ts 2017 1 12), layout := .pattern (.list [(.i 0), (.i 1), (.i 0), (.i 0), (.i 2), (.i 0)]), selector := V.truthy, defaultLabel := V.none } (noHeap : Heap V)
    let x3 ← x1.call1 (.point (ts 2017 1 11))
    let x4 ← asWs x3
    let x5 ← x4.rollback x1 2 .on none
    let x6 ← x4.rollback x1 2 .off none
    let x7 ← x4.rollback x1 2 .same none
    let x8 ← x4.rollback x1 2 .alt none
    let x9 ← x4.rollback x1 2 .any none
    check 296 ((decide (x5.loc = 4)) && (decide (x6.loc = 8)) && (decide (x7.loc = 8)) && (decide (x8.loc = 4)) && (decide (x9.loc = 9)))
    pure ()) = true := by decide +kernel

/-- timeboard/tests/test_workshift.py 298: `TestRollBack.test_rollback_on_n_negative`. -/
example : passes (do
    let (x1, x2) ← Timeboard.new (L := V) { freq := (⟨none, .D, by decide⟩ : Freq), start := (ts 2016 12 31), stop := (ts 2017 1 12), layout := .pattern (.list [(.i 0), (.i 1), (.i 0), (.i 0), (.i 2), (.i 0)]), selector := V.truthy, defaultLabel := V.none } (noHeap : Heap V)
    let x3 ← x1.call1 (.point (ts 2017 1 4))
    let x4 ← asWs x3
    let x5 ← x4.rollback x1 (-2) .on none
    let x6 ← x4.rollback x1 (-2) .off none
    let x7 ← x4.rollback x1 (-2) .same none
    let x8 ← x4.rollback x1 (-2) .alt none
    let x9 ← x4.rollback x1 (-2) .any none
    check 304 ((decide (x5.loc = 10)) && (decide (x6.loc = 6)) && (decide (x7.loc = 10)) && (decide (x8.loc = 6)) && (decide (x9.loc = 6)))
    pure ()) = true := by decide +kernel

/-- timeboard/tests/test_workshift.py 306: `TestRollBack.test_rollback_off_n_negative`. -/
example : passes (do
    let (x1, x2) ← Timeboard.new (L := V) { freq := (⟨none, .D, by decide⟩ : Freq), start := (ts 2016 12 31), stop := (ts 2017 1 12), layout := .pattern (.list [(.i 0), (.i 1), (.i 0), (.i 0), (.i 2), (.i 0)]), selector := V.truthy, defaultLabel := V.none } (noHeap : Heap V)
    let x3 ← x1.call1 (.point (ts 2017 1 5))
    let x4 ← asWs x3
    let x5 ← x4.rollback x1 (-2) .on none
    let x6 ← x4.rollback x1 (-2) .off none
    let x7 ← x4.rollback x1 (-2) .same none
    let x8 ← x4.rollback x1 (-2) .alt none
    let x9 ← x4.rollback x1 (-2) .any none
    check 312 ((decide (x5.loc = 10)) && (decide (x6.loc = 8)) && (decide (x7.loc = 8)) && (decide (x8.loc = 10)) && (decide (x9.loc = 7)))
    pure ()) = true := by decide +kernel

/-- timeboard/tests/test_workshift.py 314: `TestRollBack.test_rollback_off_n_negative_at_first_element`. -/
example : passes (do
    let (x1, x2) ← Timeboard.new (L := V) { freq := (⟨none, .D, by decide⟩ : Freq), start := (ts 2016 12 31), stop := (ts 2017 1 12), layout := .pattern (.list [(.i 0), (.i 1), (.i 0), (.i 0), (.i 2), (.i 0)]), selector := V.truthy, defaultLabel := V.none } (noHeap : Heap V)
    let x3 ← x1.call1 (.point (ts 2016 12 31))
    let x4 ← asWs x3
    let x5 ← x4.rollback x1 (-2) .off none
    check 317 (decide (x5.loc = 3))
    let x6 ← x4.rollback x1 (-2) .any none
    check 318 (decide (x6.loc = 2))
    raises 319 [.outOfBounds] (do
      let x7 ← x4.rollback x1 (-2) .on none
      pure ())
    pure ()) = true := by decide +kernel

/-- timeboard/tests/test_workshift.py 322: `TestRollBack.test_rollback_alt_off_limits`. -/
example : passes (do
    let (x1, x2) ← Timeboard.new (L := V) { freq := (⟨none, .D, by decide⟩ : Freq), start := (ts 2016 12 31), stop := (ts 2017 1 12), layout := .pattern (.list [(.i 0), (.i 1), (.i 0), (.i 0), (.i 2), (.i 0)]), selector := V.truthy, defaultLabel := V.none } (noHeap : Heap V)
    raises 324 [.outOfBounds] (do
      let x3 ← x1.call1 (.point (ts 2016 12 31))
      let x4 ← asWs x3
      let x5 ← x4.rollback x1 0 .alt none
      pure ())
    pure ()) = true := by decide +kernel

/-- timeboard/tests/test_workshift.py 327: `TestRollBack.test_rollback_n_off_limits`. -/
example : passes (do
    let (x1, x2) ← Timeboard.new (L := V) { freq := (⟨none, .D, by decide⟩ : Freq), start := (ts 2016 12 31), stop := (ts 2017 1 12), layout := .pattern (.list [(.i 0), (.i 1), (.i 0), (.i 0), (.i 2), (.i 0)]), selector := V.truthy, defaultLabel := V.none } (noHeap : Heap V)
    raises 329 [.outOfBounds] (do
      let x3 ← x1.call1 (.point (ts 2017 1 1))
      let x4 ← asWs x3
      let x5 ← x4.rollback x1 1 .on none
      pure ())
    pure ()) = true := by decide +kernel

/-- timeboard/tests/test_workshift.py 332: `TestRollBack.test_rollback_n_negative_off_limits`. -/
example : passes (do
    let (x1, x2) ← Timeboard.new (L := V) { freq := (⟨none, .D, by decide⟩ : Freq), start := (ts 2016 12 31), stop := (ts 2017 1 12), layout := .pattern (.list [(.i 0), (.i 1), (.i 0), (.i 0), (.i 2), (.i 0)]), selector := V.truthy, defaultLabel := V.none } (noHeap : Heap V)
    raises 334 [.outOfBounds] (do
      let x3 ← x1.call1 (.point (ts 2017 1 10))
      let x4 ← asWs x3
      let x5 ← x4.rollback x1 (-1) .on none
      pure ())
    pure ()) = true := by decide +kernel

/-- timeboard/tests/test_workshift.py 337: `TestRollBack.test_rollback_only_alt`. -/
example : passes (do
    let (x1, x2) ← Timeboard.new (L := V) { freq := (⟨none, .D, by decide⟩ : Freq), start := (ts 2016 12 31), stop := (ts 2017 1 12), layout := .pattern (.list [(.i 0)]), selector := V.truthy, defaultLabel := V.none } (noHeap : Heap V)
    raises 341 [.outOfBounds] (do
      let x3 ← x1.call1 (.point (ts 2017 1 10))
      let x4 ← asWs x3
      let x5 ← x4.rollback x1 0 .on none
      pure ())
    pure ()) = true := by decide +kernel

/-- timeboard/tests/test_workshift.py 352: `TestWorkshiftAddSubNumber.test_workshift_add_positive_n`. -/
example : passes (do
    let (x1, x2) ← Timeboard.new (L := V) { freq := (⟨none, .D, by decide⟩ : Freq), start := (ts 2016 12 31), stop := (ts 2017 1 12), layout := .pattern (.list [(.i 0), (.i 1), (.i 0), (.i 0), (.i 2), (.i 0)]), selector := V.truthy, defaultLabel := V.none } (noHeap : Heap V)
    let x3 ← x1.call1 (.point (ts 2017 1 2))
    let x4 ← asWs x3
    let x5 ← x4.add x1 2
    check 355 (decide (x5.loc = 10))
    pure ()) = true := by decide +kernel

/-- timeboard/tests/test_workshift.py 357: `TestWorkshiftAddSubNumber.test_workshift_add_zero`. -/
example : passes (do
    let (x1, x2) ← Timeboard.new (L := V) { freq := (⟨none, .D, by decide⟩ : Freq), start := (ts 2016 12 31), stop := (ts 2017 1 12), layout := .pattern (.list [(.i 0), (.i 1), (.i 0), (.i 0), (.i 2), (.i 0)]), selector := V.truthy, defaultLabel := V.none } (noHeap : Heap V)
    let x3 ← x1.call1 (.point (ts 2017 1 2))
    let x4 ← asWs x3
    let x5 ← x4.add x1 0
    check 362 (decide (x5.loc = 4))
    pure ()) = true := by decide +kernel

/-- timeboard/tests/test_workshift.py 364: `TestWorkshiftAddSubNumber.test_workshift_add_negative_n`. -/
example : passes (do
    let (x1, x2) ← Timeboard.new (L := V) { freq := (⟨none, .D, by decide⟩ : Freq), start := (ts 2016 12 31), stop := (ts 2017 1 12), layout := .pattern (.list [(.i 0), (.i 1), (.i 0), (.i 0), (.i 2), (.i 0)]), selector := V.truthy, defaultLabel := V.none } (noHeap : Heap V)
    let x3 ← x1.call1 (.point (ts 2017 1 9))
    let x4 ← asWs x3
    let x5 ← x4.add x1 (-2)
    check 369 (decide (x5.loc = 4))
    pure ()) = true := by decide +kernel

/-- timeboard/tests/test_workshift.py 371: `TestWorkshiftAddSubNumber.test_workshift_sub_positive_n`. -/
example : passes (do
    let (x1, x2) ← Timeboard.new (L := V) { freq := (⟨none, .D, by decide⟩ : Freq), start := (ts 2016 12 31), stop := (ts 2017 1 12), layout := .pattern (.list [(.i 0), (.i 1), (.i 0), (.i 0), (.i 2), (.i 0)]), selector := V.truthy, defaultLabel := V.none } (noHeap : Heap V)
    let x3 ← x1.call1 (.point (ts 2017 1 9))
    let x4 ← asWs x3
    let x5 ← x4.sub x1 2
    check 374 (decide (x5.loc = 1))
    pure ()) = true := by decide +kernel

/-- timeboard/tests/test_workshift.py 376: `TestWorkshiftAddSubNumber.test_workshift_sub_zero`. -/
example : passes (do
    let (x1, x2) ← Timeboard.new (L := V) { freq := (⟨none, .D, by decide⟩ : Freq), start := (ts 2016 12 31), stop := (ts 2017 1 12), layout := .pattern (.list [(.i 0), (.i 1), (.i 0), (.i 0), (.i 2), (.i 0)]), selector := V.truthy, defaultLabel := V.none } (noHeap : Heap V)
    let x3 ← x1.call1 (.point (ts 2017 1 2))
    let x4 ← asWs x3
    let x5 ← x4.sub x1 0
    check 381 (decide (x5.loc = 1))
    pure ()) = true := by decide +kernel

/-- timeboard/tests/test_workshift.py 383: `TestWorkshiftAddSubNumber.test_workshift_sub_negative_n`. -/
example : passes (do
    let (x1, x2) ← Timeboard.new (L := V) { freq := (⟨none, .D, by decide⟩ : Freq), start := (ts 2016 12 31), stop := (ts 2017 1 12), layout := .pattern (.list [(.i 0), (.i 1), (.i 0), (.i 0), (.i 2), (.i 0)]), selector := V.truthy, defaultLabel := V.none } (noHeap : Heap V)
    let x3 ← x1.call1 (.point (ts 2017 1 2))
    let x4 ← asWs x3
    let x5 ← x4.sub x1 (-2)
    check 388 (decide (x5.loc = 7))
    pure ()) = true := by decide +kernel

/-- timeboard/tests/test_workshift.py 460: `TestWorkshiftSchedules.test_ws_on_duty_schedules`. -/
example : passes (do
    let (x1, x2) ← Timeboard.new (L := V) { freq := (⟨none, .D, by decide⟩ : Freq), start := (ts 2016 12 31), stop := (ts 2017 1 12), layout := .pattern (.list [(.i 0), (.i 1), (.i 0), (.i 0), (.i 2), (.i 0)]), selector := V.truthy, defaultLabel := V.none } (noHeap : Heap V)
    let (x3, x4) ← x1.addSchedule "sdl" (fun x => x.gt (1 : Rat))
    let x5 ← x4.call1 (.point (ts 2017 1 1))
    let x6 ← asWs x5
    let x7 ← x4.getWorkshift (ts 2017 1 1) (some x3)
    let x8 ← x6.isOnDuty x4 none
    check 465 (x8)
    let x9 ← x7.isOnDuty x4 none
    check 466 (!(x9))
    let x10 ← x6.isOnDuty x4 (some x3)
    check 467 (!(x10))
    let x11 ← x7.isOnDuty x4 (some x4.defaultSchedule)
    check 468 (x11)
    check 469 (decide (x6.schedule.name = "on_duty"))
    check 470 (decide (x7.schedule.name = "sdl"))
    pure ()) = true := by decide +kernel

/-- timeboard/tests/test_workshift.py 473: `TestWorkshiftSchedules.test_ws_rollforward_0_schedules`. -/
example : passes (do
    let (x1, x2) ← Timeboard.new (L := V) { freq := (⟨none, .D, by decide⟩ : Freq), start := (ts 2016 12 31), stop := (ts 2017 1 12), layout := .pattern (.list [(.i 0), (.i 1), (.i 0), (.i 0), (.i 2), (.i 0)]), selector := V.truthy, defaultLabel := V.none } (noHeap : Heap V)
    let (x3, x4) ← x1.addSchedule "sdl" (fun x => x.gt (1 : Rat))
    let x5 ← x4.call1 (.point (ts 2017 1 1))
    let x6 ← asWs x5
    let x7 ← x4.getWorkshift (ts 2017 1 1) (some x3)
    let x8 ← x6.rollforward x4 0 .on none
    check 479 (decide (x8.loc = 1))
    check 480 (decide (x8.schedule.name = "on_duty"))
    let x9 ← x7.rollforward x4 0 .on none
    check 482 (decide (x9.loc = 4))
    check 483 (decide (x9.schedule.name = "sdl"))
    let x10 ← x6.rollforward x4 0 .on (some x3)
    check 485 (decide (x10.loc = 4))
    check 486 (decide (x10.schedule.name = "sdl"))
    let x11 ← x7.rollforward x4 0 .on (some x4.defaultSchedule)
    check 488 (decide (x11.loc = 1))
    check 489 (decide (x11.schedule.name = "on_duty"))
    pure ()) = true := by decide +kernel

/-- timeboard/tests/test_workshift.py 491: `TestWorkshiftSchedules.test_ws_rollback_0_schedules`. -/
example : passes (do
    let (x1, x2) ← Timeboard.new (L := V) { freq := (⟨none, .D, by decide⟩ : Freq), start := (ts 2016 12 31), stop := (ts 2017 1 12), layout := .pattern (.list [(.i 0), (.i 1), (.i 0), (.i 0), (.i 2), (.i 0)]), selector := V.truthy, defaultLabel := V.none } (noHeap : Heap V)
    let (x3, x4) ← x1.addSchedule "sdl" (fun x => x.gt (1 : Rat))
    let x5 ← x4.call1 (.point (ts 2017 1 8))
    let x6 ← asWs x5
    let x7 ← x4.getWorkshift (ts 2017 1 8) (some x3)
    let x8 ← x6.rollback x4 0 .on none
    check 497 (decide (x8.loc = 7))
    check 498 (decide (x8.schedule.name = "on_duty"))
    let x9 ← x7.rollback x4 0 .on none
    check 500 (decide (x9.loc = 4))
    check 501 (decide (x9.schedule.name = "sdl"))
    let x10 ← x6.rollback x4 0 .on (some x3)
    check 503 (decide (x10.loc = 4))
    check 504 (decide (x10.schedule.name = "sdl"))
    let x11 ← x7.rollback x4 0 .on (some x4.defaultSchedule)
    check 506 (decide (x11.loc = 7))
    check 507 (decide (x11.schedule.name = "on_duty"))
    pure ()) = true := by decide +kernel

/-- timeboard/tests/test_workshift.py 509: `TestWorkshiftSchedules.test_ws_rollforward_n_schedules`. -/
example : passes (do
    let (x1, x2) ← Timeboard.new (L := V) { freq := (⟨none, .D, by decide⟩ : Freq), start := (ts 2016 12 31), stop := (ts 2017 1 12), layout := .pattern (.list [(.i 0), (.i 1), (.i 0), (.i 0), (.i 2), (.i 0)]), selector := V.truthy, defaultLabel := V.none } (noHeap : Heap V)
    let (x3, x4) ← x1.addSchedule "sdl" (fun x => x.gt (1 : Rat))
    let x5 ← x4.call1 (.point (ts 2017 1 1))
    let x6 ← asWs x5
    let x7 ← x4.getWorkshift (ts 2017 1 1) (some x3)
    let x8 ← x6.rollforward x4 1 .on none
    check 515 (decide (x8.loc = 4))
    check 516 (decide (x8.schedule.name = "on_duty"))
    let x9 ← x7.rollforward x4 1 .on none
    check 518 (decide (x9.loc = 10))
    check 519 (decide (x9.schedule.name = "sdl"))
    let x10 ← x6.rollforward x4 1 .on (some x3)
    check 521 (decide (x10.loc = 10))
    check 522 (decide (x10.schedule.name = "sdl"))
    let x11 ← x7.rollforward x4 1 .on (some x4.defaultSchedule)
    check 524 (decide (x11.loc = 4))
    check 525 (decide (x11.schedule.name = "on_duty"))
    pure ()) = true := by decide +kernel

/-- timeboard/tests/test_workshift.py 527: `TestWorkshiftSchedules.test_ws_rollback_n_schedules`. -/
example : passes (do
    let (x1, x2) ← Timeboard.new (L := V) { freq := (⟨none, .D, by decide⟩ : Freq), start := (ts 2016 12 31), stop := (ts 2017 1 12), layout := .pattern (.list [(.i 0), (.i 1), (.i 0), (.i 0), (.i 2), (.i 0)]), selector := V.truthy, defaultLabel := V.none } (noHeap : Heap V)
    let (x3, x4) ← x1.addSchedule "sdl" (fun x => x.gt (1 : Rat))
    let x5 ← x4.call1 (.point (ts 2017 1 11))
    let x6 ← asWs x5
    let x7 ← x4.getWorkshift (ts 2017 1 11) (some x3)
    let x8 ← x6.rollback x4 1 .on none
    check 533 (decide (x8.loc = 7))
    check 534 (decide (x8.schedule.name = "on_duty"))
    let x9 ← x7.rollback x4 1 .on none
    check 536 (decide (x9.loc = 4))
    check 537 (decide (x9.schedule.name = "sdl"))
    let x10 ← x6.rollback x4 1 .on (some x3)
    check 539 (decide (x10.loc = 4))
    check 540 (decide (x10.schedule.name = "sdl"))
    let x11 ← x7.rollback x4 1 .on (some x4.defaultSchedule)
    check 542 (decide (x11.loc = 7))
    check 543 (decide (x11.schedule.name = "on_duty"))
    pure ()) = true := by decide +kernel

/-- timeboard/tests/test_workshift.py 545: `TestWorkshiftSchedules.test_ws_rollforward_any_schedules`. -/
example : passes (do
    let (x1, x2) ← Timeboard.new (L := V) { freq := (⟨none, .D, by decide⟩ : Freq), start := (ts 2016 12 31), stop := (ts 2017 1 12), layout := .pattern (.list [(.i 0), (.i 1), (.i 0), (.i 0), (.i 2), (.i 0)]), selector := V.truthy, defaultLabel := V.none } (noHeap : Heap V)
    let (x3, x4) ← x1.addSchedule "sdl" (fun x => x.gt (1 : Rat))
    let x5 ← x4.call1 (.point (ts 2016 12 31))
    let x6 ← asWs x5
    let x7 ← x4.getWorkshift (ts 2016 12 31) (some x3)
    let x8 ← x6.rollforward x4 2 .any none
    check 551 (decide (x8.loc = 2))
    check 552 (decide (x8.schedule.name = "on_duty"))
    let x9 ← x7.rollforward x4 2 .any none
    check 554 (decide (x9.loc = 2))
    check 555 (decide (x9.schedule.name = "sdl"))
    let x10 ← x6.rollforward x4 2 .any (some x3)
    check 557 (decide (x10.loc = 2))
    check 558 (decide (x10.schedule.name = "sdl"))
    let x11 ← x7.rollforward x4 2 .any (some x4.defaultSchedule)
    check 560 (decide (x11.loc = 2))
    check 561 (decide (x11.schedule.name = "on_duty"))
    pure ()) = true := by decide +kernel

/-- timeboard/tests/test_workshift.py 563: `TestWorkshiftSchedules.test_ws_rollforward_schedules_OOB`. -/
example : passes (do
    let (x1, x2) ← Timeboard.new (L := V) { freq := (⟨none, .D, by decide⟩ : Freq), start := (ts 2016 12 31), stop := (ts 2017 1 12), layout := .pattern (.list [(.i 0), (.i 1), (.i 0), (.i 0), (.i 2), (.i 0)]), selector := V.truthy, defaultLabel := V.none } (noHeap : Heap V)
    let (x3, x4) ← x1.addSchedule "sdl" (fun x => x.gt (1 : Rat))
    let x5 ← x4.call1 (.point (ts 2017 1 3))
    let x6 ← asWs x5
    let x7 ← x4.getWorkshift (ts 2017 1 3) (some x3)
    let x8 ← x6.rollforward x4 2 .on none
    check 568 (decide (x8.loc = 10))
    raises 569 [.outOfBounds] (do
      let x9 ← x7.rollforward x4 2 .on none
      pure ())
    pure ()) = true := by decide +kernel

/-- timeboard/tests/test_workshift.py 581: `TestWorkshiftWorktime.test_ws_worktime_default`. -/
example : passes (do
    let (x1, x2) ← Timeboard.new (L := V) { freq := (⟨none, .D, by decide⟩ : Freq), start := (ts 2016 12 31), stop := (ts 2017 1 12), layout := .pattern (.list [(.i 0), (.i 1), (.i 0), (.i 0), (.i 2), (.i 0)]), selector := V.truthy, defaultLabel := V.none } (noHeap : Heap V)
    let x3 ← Workshift.new x1 4 none
    let x4 ← x3.worktime x1 V.num? .on none
    check 584 (decide (x4 = (1 : Rat)))
    let x5 ← x3.worktime x1 V.num? .off none
    check 585 (decide (x5 = (0 : Rat)))
    let x6 ← x3.worktime x1 V.num? .any none
    check 586 (decide (x6 = (1 : Rat)))
    let x7 ← Workshift.new x1 5 none
    let x8 ← x7.worktime x1 V.num? .on none
    check 589 (decide (x8 = (0 : Rat)))
    let x9 ← x7.worktime x1 V.num? .off none
    check 590 (decide (x9 = (1 : Rat)))
    let x10 ← x7.worktime x1 V.num? .any none
    check 591 (decide (x10 = (1 : Rat)))
    pure ()) = true := by decide +kernel

/-- timeboard/tests/test_workshift.py 593: `TestWorkshiftWorktime.test_ws_worktime_in_label`. -/
example : passes (do
    let (x1, x2) ← Timeboard.new (L := V) { freq := (⟨none, .D, by decide⟩ : Freq), start := (ts 2016 12 31), stop := (ts 2017 1 12), layout := .pattern (.list [(.i 0), (.i 1), (.i 0), (.i 0), (.i 2), (.i 0)]), selector := V.truthy, defaultLabel := V.none, worktimeSource := "labels" } (noHeap : Heap V)
    let x3 ← Workshift.new x1 4 none
    let x4 ← x3.worktime x1 V.num? .on none
    check 599 (decide (x4 = (2 : Rat)))
    let x5 ← x3.worktime x1 V.num? .off none
    check 600 (decide (x5 = (0 : Rat)))
    let x6 ← x3.worktime x1 V.num? .any none
    check 601 (decide (x6 = (2 : Rat)))
    pure ()) = true := by decide +kernel

/-- timeboard/tests/test_workshift.py 603: `TestWorkshiftWorktime.test_ws_worktime_other_schedule`. -/
example : passes (do
    let (x1, x2) ← Timeboard.new (L := V) { freq := (⟨none, .D, by decide⟩ : Freq), start := (ts 2016 12 31), stop := (ts 2017 1 12), layout := .pattern (.list [(.i 0), (.i 1), (.i 0), (.i 0), (.i 2), (.i 0)]), selector := V.truthy, defaultLabel := V.none } (noHeap : Heap V)
    let (x3, x4) ← x1.addSchedule "other" (fun x => x.lt (2 : Rat))
    let x5 ← Workshift.new x4 4 none
    let x6 ← x5.worktime x4 V.num? .on (some x3)
    check 607 (decide (x6 = (0 : Rat)))
    let x7 ← x5.worktime x4 V.num? .off (some x3)
    check 608 (decide (x7 = (1 : Rat)))
    let x8 ← x5.worktime x4 V.num? .any (some x3)
    check 609 (decide (x8 = (1 : Rat)))
    let (x9, x10) ← Timeboard.new (L := V) { freq := (⟨none, .D, by decide⟩ : Freq), start := (ts 2016 12 31), stop := (ts 2017 1 12), layout := .pattern (.list [(.i 0), (.i 1), (.i 0), (.i 0), (.i 2), (.i 0)]), selector := V.truthy, defaultLabel := V.none, worktimeSource := "labels" } x2
    let x11 ← Workshift.new x9 4 none
    let x12 ← x11.worktime x9 V.num? .on (some x3)
    check 616 (decide (x12 = (0 : Rat)))
    let x13 ← x11.worktime x9 V.num? .off (some x3)
    check 617 (decide (x13 = (2 : Rat)))
    let x14 ← x11.worktime x9 V.num? .any (some x3)
    check 618 (decide (x14 = (2 : Rat)))
    pure ()) = true := by decide +kernel

/-- timeboard/tests/test_workshift.py 620: `TestWorkshiftWorktime.test_ws_worktime_in_labels_strings`. -/
example : passes (do
    let (x1, x2) ← Timeboard.new (L := V) { freq := (⟨none, .D, by decide⟩ : Freq), start := (ts 2016 12 31), stop := (ts 2017 1 12), layout := .pattern (.list [(.i 0), (.i 1), (.i 0), (.i 0), (.str "a"), (.i 0)]), selector := V.truthy, defaultLabel := V.none, worktimeSource := "labels" } (noHeap : Heap V)
    let x3 ← Workshift.new x1 4 none
    raises 626 [.typeError] (do
      let x4 ← x3.worktime x1 V.num? .on none
      pure ())
    raises 628 [.typeError] (do
      let x5 ← x3.worktime x1 V.num? .any none
      pure ())
    let x6 ← x3.worktime x1 V.num? .off none
    check 630 (decide (x6 = (0 : Rat)))
    pure ()) = true := by decide +kernel

end TB.Conf
