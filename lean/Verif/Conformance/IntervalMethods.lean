import Verif.Conformance.Support
/-!
# `timeboard/tests/test_interval_methods.py`

Generated by `tools/conformance.py`.  One example per unit test: the statements of the test, performed by the
model, succeed.  These are checks of the model on single inputs, not proofs of properties.
-/
set_option linter.unusedVariables false
namespace TB.Conf

/-- timeboard/tests/test_interval_methods.py 25: `TestIntervalFindMyBounds.test_interval_find_my_bounds_on`. -/
example : passes (do
    let (x1, x2) ← Timeboard.new (L := V) { freq := (⟨none, .D, by decide⟩ : Freq), start := (ts 2016 12 31), stop := (ts 2017 1 12), layout := .pattern (.list [(.i 0), (.i 1), (.i 0), (.i 0), (.i 2), (.i 0)]), selector := V.truthy, defaultLabel := V.none } (noHeap : Heap V)
    let x3 ← Interval.new x1 (2, 11) (some x1.defaultSchedule)
    let x4 ← x3.dutyIdx x1 .on x3.schedule
    check 30 (decide (x4.2 = some (1, 3)))
    let x5 ← Interval.new x1 (4, 11) (some x1.defaultSchedule)
    let x6 ← x5.dutyIdx x1 .on x5.schedule
    check 30 (decide (x6.2 = some (1, 3)))
    let x7 ← Interval.new x1 (2, 10) (some x1.defaultSchedule)
    let x8 ← x7.dutyIdx x1 .on x7.schedule
    check 30 (decide (x8.2 = some (1, 3)))
    let x9 ← Interval.new x1 (4, 10) (some x1.defaultSchedule)
    let x10 ← x9.dutyIdx x1 .on x9.schedule
    check 30 (decide (x10.2 = some (1, 3)))
    pure ()) = true := by decide +kernel

/-- timeboard/tests/test_interval_methods.py 32: `TestIntervalFindMyBounds.test_interval_find_my_bounds_off`. -/
example : passes (do
    let (x1, x2) ← Timeboard.new (L := V) { freq := (⟨none, .D, by decide⟩ : Freq), start := (ts 2016 12 31), stop := (ts 2017 1 12), layout := .pattern (.list [(.i 0), (.i 1), (.i 0), (.i 0), (.i 2), (.i 0)]), selector := V.truthy, defaultLabel := V.none } (noHeap : Heap V)
    let x3 ← Interval.new x1 (1, 10) (some x1.defaultSchedule)
    let x4 ← x3.dutyIdx x1 .off x3.schedule
    check 37 (decide (x4.2 = some (1, 6)))
    let x5 ← Interval.new x1 (2, 10) (some x1.defaultSchedule)
    let x6 ← x5.dutyIdx x1 .off x5.schedule
    check 37 (decide (x6.2 = some (1, 6)))
    let x7 ← Interval.new x1 (1, 9) (some x1.defaultSchedule)
    let x8 ← x7.dutyIdx x1 .off x7.schedule
    check 37 (decide (x8.2 = some (1, 6)))
    let x9 ← Interval.new x1 (2, 9) (some x1.defaultSchedule)
    let x10 ← x9.dutyIdx x1 .off x9.schedule
    check 37 (decide (x10.2 = some (1, 6)))
    pure ()) = true := by decide +kernel

/-- timeboard/tests/test_interval_methods.py 39: `TestIntervalFindMyBounds.test_interval_find_my_bounds_no_such_duty_in_interval`. -/
example : passes (do
    let (x1, x2) ← Timeboard.new (L := V) { freq := (⟨none, .D, by decide⟩ : Freq), start := (ts 2016 12 31), stop := (ts 2017 1 12), layout := .pattern (.list [(.i 0), (.i 1), (.i 0), (.i 0), (.i 2), (.i 0)]), selector := V.truthy, defaultLabel := V.none } (noHeap : Heap V)
    let x3 ← Interval.new x1 (11, 12) (some x1.defaultSchedule)
    let x4 ← x3.dutyIdx x1 .on x3.schedule
    check 44 (decide (x4.2 = none))
    let x5 ← x3.dutyIdx x1 .off x3.schedule
    check 46 (decide (x5.2 = some (7, 8)))
    let x6 ← Interval.new x1 (0, 0) (some x1.defaultSchedule)
    let x7 ← x6.dutyIdx x1 .on x6.schedule
    check 50 (decide (x7.2 = none))
    let x8 ← x6.dutyIdx x1 .off x6.schedule
    check 52 (decide (x8.2 = some (0, 0)))
    let x9 ← Interval.new x1 (10, 10) (some x1.defaultSchedule)
    let x10 ← x9.dutyIdx x1 .on x9.schedule
    check 56 (decide (x10.2 = some (3, 3)))
    let x11 ← x9.dutyIdx x1 .off x9.schedule
    check 58 (decide (x11.2 = none))
    pure ()) = true := by decide +kernel

/-- timeboard/tests/test_interval_methods.py 60: `TestIntervalFindMyBounds.test_interval_find_my_bounds_no_on_duty_in_tb`. -/
example : passes (do
    let (x1, x2) ← Timeboard.new (L := V) { freq := (⟨none, .D, by decide⟩ : Freq), start := (ts 2016 12 31), stop := (ts 2017 1 12), layout := .pattern (.list [(.i 0)]), selector := V.truthy, defaultLabel := V.none } (noHeap : Heap V)
    let x3 ← Interval.new x1 (1, 2) (some x1.defaultSchedule)
    let x4 ← x3.dutyIdx x1 .on x3.schedule
    check 66 (decide (x4.2 = none))
    let x5 ← x3.dutyIdx x1 .off x3.schedule
    check 68 (decide (x5.2 = some (1, 2)))
    pure ()) = true := by decide +kernel

/-- timeboard/tests/test_interval_methods.py 70: `TestIntervalFindMyBounds.test_interval_find_my_bounds_no_off_duty_in_tb`. -/
example : passes (do
    let (x1, x2) ← Timeboard.new (L := V) { freq := (⟨none, .D, by decide⟩ : Freq), start := (ts 2016 12 31), stop := (ts 2017 1 12), layout := .pattern (.list [(.i 1)]), selector := V.truthy, defaultLabel := V.none } (noHeap : Heap V)
    let x3 ← Interval.new x1 (1, 2) (some x1.defaultSchedule)
    let x4 ← x3.dutyIdx x1 .on x3.schedule
    check 76 (decide (x4.2 = some (1, 2)))
    let x5 ← x3.dutyIdx x1 .off x3.schedule
    check 78 (decide (x5.2 = none))
    pure ()) = true := by decide +kernel

/-- timeboard/tests/test_interval_methods.py 83: `TestIntervalFirstLastNth.test_interval_nth_on`. -/
example : passes (do
    let (x1, x2) ← Timeboard.new (L := V) { freq := (⟨none, .D, by decide⟩ : Freq), start := (ts 2016 12 31), stop := (ts 2017 1 12), layout := .pattern (.list [(.i 0), (.i 1), (.i 0), (.i 0), (.i 2), (.i 0)]), selector := V.truthy, defaultLabel := V.none } (noHeap : Heap V)
    let x3 ← Interval.new x1 (2, 11) (some x1.defaultSchedule)
    let x4 ← x3.first x1 .on none
    let x5 ← x3.last x1 .on none
    let x6 ← x3.nth x1 1 .on none
    let x7 ← x3.nth x1 (-2) .on none
    check 95 (decide (x4.loc = 4))
    check 96 (decide (x5.loc = 10))
    check 97 (decide (x6.loc = 7))
    check 98 (decide (x7.loc = 7))
    let x8 ← Interval.new x1 (4, 11) (some x1.defaultSchedule)
    let x9 ← x8.first x1 .on none
    let x10 ← x8.last x1 .on none
    let x11 ← x8.nth x1 1 .on none
    let x12 ← x8.nth x1 (-2) .on none
    check 95 (decide (x9.loc = 4))
    check 96 (decide (x10.loc = 10))
    check 97 (decide (x11.loc = 7))
    check 98 (decide (x12.loc = 7))
    let x13 ← Interval.new x1 (2, 10) (some x1.defaultSchedule)
    let x14 ← x13.first x1 .on none
    let x15 ← x13.last x1 .on none
    let x16 ← x13.nth x1 1 .on none
    let x17 ← x13.nth x1 (-2) .on none
    check 95 (decide (x14.loc = 4))
    check 96 (decide (x15.loc = 10))
    check 97 (decide (x16.loc = 7))
    check 98 (decide (x17.loc = 7))
    let x18 ← Interval.new x1 (4, 10) (some x1.defaultSchedule)
    let x19 ← x18.first x1 .on none
    let x20 ← x18.last x1 .on none
    let x21 ← x18.nth x1 1 .on none
    let x22 ← x18.nth x1 (-2) .on none
    check 95 (decide (x19.loc = 4))
    check 96 (decide (x20.loc = 10))
    check 97 (decide (x21.loc = 7))
    check 98 (decide (x22.loc = 7))
    pure ()) = true := by decide +kernel

/-- timeboard/tests/test_interval_methods.py 100: `TestIntervalFirstLastNth.test_interval_nth_off`. -/
example : passes (do
    let (x1, x2) ← Timeboard.new (L := V) { freq := (⟨none, .D, by decide⟩ : Freq), start := (ts 2016 12 31), stop := (ts 2017 1 12), layout := .pattern (.list [(.i 0), (.i 1), (.i 0), (.i 0), (.i 2), (.i 0)]), selector := V.truthy, defaultLabel := V.none } (noHeap : Heap V)
    let x3 ← Interval.new x1 (1, 10) (some x1.defaultSchedule)
    let x4 ← x3.first x1 .off none
    let x5 ← x3.last x1 .off none
    let x6 ← x3.nth x1 1 .off none
    let x7 ← x3.nth x1 (-2) .off none
    check 112 (decide (x4.loc = 2))
    check 113 (decide (x5.loc = 9))
    check 114 (decide (x6.loc = 3))
    check 115 (decide (x7.loc = 8))
    let x8 ← Interval.new x1 (2, 10) (some x1.defaultSchedule)
    let x9 ← x8.first x1 .off none
    let x10 ← x8.last x1 .off none
    let x11 ← x8.nth x1 1 .off none
    let x12 ← x8.nth x1 (-2) .off none
    check 112 (decide (x9.loc = 2))
    check 113 (decide (x10.loc = 9))
    check 114 (decide (x11.loc = 3))
    check 115 (decide (x12.loc = 8))
    let x13 ← Interval.new x1 (1, 9) (some x1.defaultSchedule)
    let x14 ← x13.first x1 .off none
    let x15 ← x13.last x1 .off none
    let x16 ← x13.nth x1 1 .off none
    let x17 ← x13.nth x1 (-2) .off none
    check 112 (decide (x14.loc = 2))
    check 113 (decide (x15.loc = 9))
    check 114 (decide (x16.loc = 3))
    check 115 (decide (x17.loc = 8))
    let x18 ← Interval.new x1 (2, 9) (some x1.defaultSchedule)
    let x19 ← x18.first x1 .off none
    let x20 ← x18.last x1 .off none
    let x21 ← x18.nth x1 1 .off none
    let x22 ← x18.nth x1 (-2) .off none
    check 112 (decide (x19.loc = 2))
    check 113 (decide (x20.loc = 9))
    check 114 (decide (x21.loc = 3))
    check 115 (decide (x22.loc = 8))
    pure ()) = true := by decide +kernel

/-- timeboard/tests/test_interval_methods.py 117: `TestIntervalFirstLastNth.test_interval_nth_any`. -/
example : passes (do
    let (x1, x2) ← Timeboard.new (L := V) { freq := (⟨none, .D, by decide⟩ : Freq), start := (ts 2016 12 31), stop := (ts 2017 1 12), layout := .pattern (.list [(.i 0), (.i 1), (.i 0), (.i 0), (.i 2), (.i 0)]), selector := V.truthy, defaultLabel := V.none } (noHeap : Heap V)
    let x3 ← Interval.new x1 (2, 10) (some x1.defaultSchedule)
    let x4 ← x3.first x1 .any none
    let x5 ← x3.last x1 .any none
    let x6 ← x3.nth x1 1 .any none
    let x7 ← x3.nth x1 (-2) .any none
    check 128 (decide (x4.loc = 2))
    check 129 (decide (x5.loc = 10))
    check 130 (decide (x6.loc = 3))
    check 131 (decide (x7.loc = 9))
    pure ()) = true := by decide +kernel

/-- timeboard/tests/test_interval_methods.py 133: `TestIntervalFirstLastNth.test_interval_nth_single`. -/
example : passes (do
    let (x1, x2) ← Timeboard.new (L := V) { freq := (⟨none, .D, by decide⟩ : Freq), start := (ts 2016 12 31), stop := (ts 2017 1 12), layout := .pattern (.list [(.i 0), (.i 1), (.i 0), (.i 0), (.i 2), (.i 0)]), selector := V.truthy, defaultLabel := V.none } (noHeap : Heap V)
    let x3 ← Interval.new x1 (0, 0) (some x1.defaultSchedule)
    let x4 ← x3.first x1 .off none
    let x5 ← x3.last x1 .off none
    let x6 ← x3.nth x1 0 .off none
    check 144 (decide (x4.loc = 0))
    check 145 (decide (x5.loc = 0))
    check 146 (decide (x6.loc = 0))
    let x7 ← Interval.new x1 (3, 3) (some x1.defaultSchedule)
    let x8 ← x7.first x1 .any none
    let x9 ← x7.last x1 .any none
    let x10 ← x7.nth x1 0 .any none
    check 144 (decide (x8.loc = 3))
    check 145 (decide (x9.loc = 3))
    check 146 (decide (x10.loc = 3))
    let x11 ← Interval.new x1 (4, 4) (some x1.defaultSchedule)
    let x12 ← x11.first x1 .on none
    let x13 ← x11.last x1 .on none
    let x14 ← x11.nth x1 0 .on none
    check 144 (decide (x12.loc = 4))
    check 145 (decide (x13.loc = 4))
    check 146 (decide (x14.loc = 4))
    let x15 ← Interval.new x1 (7, 7) (some x1.defaultSchedule)
    let x16 ← x15.first x1 .any none
    let x17 ← x15.last x1 .any none
    let x18 ← x15.nth x1 0 .any none
    check 144 (decide (x16.loc = 7))
    check 145 (decide (x17.loc = 7))
    check 146 (decide (x18.loc = 7))
    let x19 ← Interval.new x1 (12, 12) (some x1.defaultSchedule)
    let x20 ← x19.first x1 .off none
    let x21 ← x19.last x1 .off none
    let x22 ← x19.nth x1 0 .off none
    check 144 (decide (x20.loc = 12))
    check 145 (decide (x21.loc = 12))
    check 146 (decide (x22.loc = 12))
    pure ()) = true := by decide +kernel

/-- timeboard/tests/test_interval_methods.py 148: `TestIntervalFirstLastNth.test_interval_nth_no_on_duty`. -/
example : passes (do
    let (x1, x2) ← Timeboard.new (L := V) { freq := (⟨none, .D, by decide⟩ : Freq), start := (ts 2016 12 31), stop := (ts 2017 1 12), layout := .pattern (.list [(.i 0), (.i 1), (.i 0), (.i 0), (.i 2), (.i 0)]), selector := V.truthy, defaultLabel := V.none } (noHeap : Heap V)
    let x3 ← Interval.new x1 (2, 3) (some x1.defaultSchedule)
    raises 151 [.outOfBounds] (do
      let x4 ← x3.first x1 .on none
      pure ())
    raises 153 [.outOfBounds] (do
      let x5 ← x3.last x1 .on none
      pure ())
    raises 155 [.outOfBounds] (do
      let x6 ← x3.nth x1 0 .on none
      pure ())
    pure ()) = true := by decide +kernel

/-- timeboard/tests/test_interval_methods.py 158: `TestIntervalFirstLastNth.test_interval_nth_no_off_duty`. -/
example : passes (do
    let (x1, x2) ← Timeboard.new (L := V) { freq := (⟨none, .D, by decide⟩ : Freq), start := (ts 2016 12 31), stop := (ts 2017 1 12), layout := .pattern (.list [(.i 0), (.i 1), (.i 0), (.i 0), (.i 2), (.i 0)]), selector := V.truthy, defaultLabel := V.none } (noHeap : Heap V)
    let x3 ← Interval.new x1 (4, 4) (some x1.defaultSchedule)
    raises 161 [.outOfBounds] (do
      let x4 ← x3.first x1 .off none
      pure ())
    raises 163 [.outOfBounds] (do
      let x5 ← x3.last x1 .off none
      pure ())
    raises 165 [.outOfBounds] (do
      let x6 ← x3.nth x1 0 .off none
      pure ())
    pure ()) = true := by decide +kernel

/-- timeboard/tests/test_interval_methods.py 168: `TestIntervalFirstLastNth.test_interval_nth_OOB`. -/
example : passes (do
    let (x1, x2) ← Timeboard.new (L := V) { freq := (⟨none, .D, by decide⟩ : Freq), start := (ts 2016 12 31), stop := (ts 2017 1 12), layout := .pattern (.list [(.i 0), (.i 1), (.i 0), (.i 0), (.i 2), (.i 0)]), selector := V.truthy, defaultLabel := V.none } (noHeap : Heap V)
    let x3 ← Interval.new x1 (2, 8) (some x1.defaultSchedule)
    raises 171 [.outOfBounds] (do
      let x4 ← x3.nth x1 2 .on none
      pure ())
    raises 173 [.outOfBounds] (do
      let x5 ← x3.nth x1 5 .off none
      pure ())
    raises 175 [.outOfBounds] (do
      let x6 ← x3.nth x1 7 .any none
      pure ())
    pure ()) = true := by decide +kernel

/-- timeboard/tests/test_interval_methods.py 178: `TestIntervalFirstLastNth.test_interval_default_nth`. -/
example : passes (do
    let (x1, x2) ← Timeboard.new (L := V) { freq := (⟨none, .D, by decide⟩ : Freq), start := (ts 2016 12 31), stop := (ts 2017 1 12), layout := .pattern (.list [(.i 0), (.i 1), (.i 0), (.i 0), (.i 2), (.i 0)]), selector := V.truthy, defaultLabel := V.none } (noHeap : Heap V)
    let x3 ← x1.getInterval none none none true "11" none
    let x4 ← x3.first x1 .on none
    check 184 (decide (x4.loc = 1))
    let x5 ← x3.nth x1 2 .on none
    check 185 (decide (x5.loc = 7))
    let x6 ← x3.last x1 .on none
    check 186 (decide (x6.loc = 10))
    let x7 ← x3.first x1 .off none
    check 184 (decide (x7.loc = 0))
    let x8 ← x3.nth x1 2 .off none
    check 185 (decide (x8.loc = 3))
    let x9 ← x3.last x1 .off none
    check 186 (decide (x9.loc = 12))
    let x10 ← x3.first x1 .any none
    check 184 (decide (x10.loc = 0))
    let x11 ← x3.nth x1 2 .any none
    check 185 (decide (x11.loc = 2))
    let x12 ← x3.last x1 .any none
    check 186 (decide (x12.loc = 12))
    pure ()) = true := by decide +kernel

/-- timeboard/tests/test_interval_methods.py 188: `TestIntervalFirstLastNth.test_interval_default_nth_OOB`. -/
example : passes (do
    let (x1, x2) ← Timeboard.new (L := V) { freq := (⟨none, .D, by decide⟩ : Freq), start := (ts 2016 12 31), stop := (ts 2017 1 12), layout := .pattern (.list [(.i 0), (.i 1), (.i 0), (.i 0), (.i 2), (.i 0)]), selector := V.truthy, defaultLabel := V.none } (noHeap : Heap V)
    let x3 ← x1.getInterval none none none true "11" none
    raises 191 [.outOfBounds] (do
      let x4 ← x3.nth x1 4 .on none
      pure ())
    raises 193 [.outOfBounds] (do
      let x5 ← x3.nth x1 9 .off none
      pure ())
    raises 195 [.outOfBounds] (do
      let x6 ← x3.nth x1 13 .any none
      pure ())
    pure ()) = true := by decide +kernel

/-- timeboard/tests/test_interval_methods.py 201: `TestIntervalCount.test_interval_count_on`. -/
example : passes (do
    let (x1, x2) ← Timeboard.new (L := V) { freq := (⟨none, .D, by decide⟩ : Freq), start := (ts 2016 12 31), stop := (ts 2017 1 12), layout := .pattern (.list [(.i 0), (.i 1), (.i 0), (.i 0), (.i 2), (.i 0)]), selector := V.truthy, defaultLabel := V.none } (noHeap : Heap V)
    let x3 ← Interval.new x1 (2, 11) (some x1.defaultSchedule)
    let x4 ← x3.count x1 .on none
    check 204 (decide (x4 = 3))
    let x5 ← Interval.new x1 (4, 11) (some x1.defaultSchedule)
    let x6 ← x5.count x1 .on none
    check 204 (decide (x6 = 3))
    let x7 ← Interval.new x1 (2, 10) (some x1.defaultSchedule)
    let x8 ← x7.count x1 .on none
    check 204 (decide (x8 = 3))
    let x9 ← Interval.new x1 (4, 10) (some x1.defaultSchedule)
    let x10 ← x9.count x1 .on none
    check 204 (decide (x10 = 3))
    pure ()) = true := by decide +kernel

/-- timeboard/tests/test_interval_methods.py 206: `TestIntervalCount.test_interval_count_off`. -/
example : passes (do
    let (x1, x2) ← Timeboard.new (L := V) { freq := (⟨none, .D, by decide⟩ : Freq), start := (ts 2016 12 31), stop := (ts 2017 1 12), layout := .pattern (.list [(.i 0), (.i 1), (.i 0), (.i 0), (.i 2), (.i 0)]), selector := V.truthy, defaultLabel := V.none } (noHeap : Heap V)
    let x3 ← Interval.new x1 (1, 10) (some x1.defaultSchedule)
    let x4 ← x3.count x1 .off none
    check 209 (decide (x4 = 6))
    let x5 ← Interval.new x1 (2, 10) (some x1.defaultSchedule)
    let x6 ← x5.count x1 .off none
    check 209 (decide (x6 = 6))
    let x7 ← Interval.new x1 (1, 9) (some x1.defaultSchedule)
    let x8 ← x7.count x1 .off none
    check 209 (decide (x8 = 6))
    let x9 ← Interval.new x1 (2, 9) (some x1.defaultSchedule)
    let x10 ← x9.count x1 .off none
    check 209 (decide (x10 = 6))
    pure ()) = true := by decide +kernel

/-- timeboard/tests/test_interval_methods.py 212: `TestIntervalCount.test_interval_count_any`. -/
example : passes (do
    let (x1, x2) ← Timeboard.new (L := V) { freq := (⟨none, .D, by decide⟩ : Freq), start := (ts 2016 12 31), stop := (ts 2017 1 12), layout := .pattern (.list [(.i 0), (.i 1), (.i 0), (.i 0), (.i 2), (.i 0)]), selector := V.truthy, defaultLabel := V.none } (noHeap : Heap V)
    let x3 ← Interval.new x1 (1, 9) (some x1.defaultSchedule)
    let x4 ← x3.count x1 .any none
    check 214 (decide (x4 = 9))
    pure ()) = true := by decide +kernel

/-- timeboard/tests/test_interval_methods.py 217: `TestIntervalCount.test_interval_count_single`. -/
example : passes (do
    let (x1, x2) ← Timeboard.new (L := V) { freq := (⟨none, .D, by decide⟩ : Freq), start := (ts 2016 12 31), stop := (ts 2017 1 12), layout := .pattern (.list [(.i 0), (.i 1), (.i 0), (.i 0), (.i 2), (.i 0)]), selector := V.truthy, defaultLabel := V.none } (noHeap : Heap V)
    let x3 ← Interval.new x1 (2, 2) (some x1.defaultSchedule)
    let x4 ← x3.count x1 .off none
    check 220 (decide (x4 = 1))
    let x5 ← Interval.new x1 (3, 3) (some x1.defaultSchedule)
    let x6 ← x5.count x1 .any none
    check 220 (decide (x6 = 1))
    let x7 ← Interval.new x1 (4, 4) (some x1.defaultSchedule)
    let x8 ← x7.count x1 .on none
    check 220 (decide (x8 = 1))
    let x9 ← Interval.new x1 (7, 7) (some x1.defaultSchedule)
    let x10 ← x9.count x1 .any none
    check 220 (decide (x10 = 1))
    pure ()) = true := by decide +kernel

/-- timeboard/tests/test_interval_methods.py 223: `TestIntervalCount.test_interval_count_no_such_duty`. -/
example : passes (do
    let (x1, x2) ← Timeboard.new (L := V) { freq := (⟨none, .D, by decide⟩ : Freq), start := (ts 2016 12 31), stop := (ts 2017 1 12), layout := .pattern (.list [(.i 0), (.i 1), (.i 0), (.i 0), (.i 2), (.i 0)]), selector := V.truthy, defaultLabel := V.none } (noHeap : Heap V)
    let x3 ← Interval.new x1 (2, 3) (some x1.defaultSchedule)
    let x4 ← x3.count x1 .on none
    check 225 (decide (x4 = 0))
    let x5 ← Interval.new x1 (4, 4) (some x1.defaultSchedule)
    let x6 ← x5.count x1 .off none
    check 227 (decide (x6 = 0))
    pure ()) = true := by decide +kernel

/-- timeboard/tests/test_interval_methods.py 230: `TestIntervalCount.test_interval_count_default`. -/
example : passes (do
    let (x1, x2) ← Timeboard.new (L := V) { freq := (⟨none, .D, by decide⟩ : Freq), start := (ts 2016 12 31), stop := (ts 2017 1 12), layout := .pattern (.list [(.i 0), (.i 1), (.i 0), (.i 0), (.i 2), (.i 0)]), selector := V.truthy, defaultLabel := V.none } (noHeap : Heap V)
    let x3 ← x1.getInterval none none none true "11" none
    let x4 ← x3.count x1 .on none
    check 233 (decide (x4 = 4))
    let x5 ← x3.count x1 .off none
    check 234 (decide (x5 = 9))
    let x6 ← x3.count x1 .any none
    check 235 (decide (x6 = 13))
    pure ()) = true := by decide +kernel

/-- timeboard/tests/test_interval_methods.py 252: `TestIntervalDaysCountPeriodsM.test_interval_d_count_periods_m_part_full_part`. -/
example : passes (do
    let (x1, x2) ← Timeboard.new (L := V) { freq := (⟨none, .D, by decide⟩ : Freq), start := (ts 2016 11 28), stop := (ts 2017 5 2), layout := .organizer (.marker { each := (⟨none, .W none, by decide⟩ : Freq), ats := [] }) [.pattern (.list [(.i 1), (.i 1), (.i 1), (.i 1), (.i 1), (.i 0), (.i 0)])], selector := V.truthy, defaultLabel := V.none, amendments := [((ts 2017 1 1), (.i 0)), ((ts 2017 1 2), (.i 0)), ((ts 2017 1 3), (.i 0)), ((ts 2017 1 4), (.i 0)), ((ts 2017 1 5), (.i 0)), ((ts 2017 1 6), (.i 0)), ((ts 2017 1 7), (.i 0)), ((ts 2017 1 8), (.i 0)), ((ts 2017 1 9), (.i 0)), ((ts 2017 1 10), (.i 0))] } (noHeap : Heap V)
    let x3 ← x1.getInterval (some (.pair (some (ts 2016 12 29)) (some (ts 2017 4 1)))) none none true "11" none
    let x4 ← x3.countPeriods x1 (⟨none, .M, by decide⟩ : Freq) .on none
    check 255 (decide (x4 = ((34 : Rat) / 11)))
    let x5 ← x3.countPeriods x1 (⟨none, .M, by decide⟩ : Freq) .off none
    check 256 (decide (x5 = ((289 : Rat) / 90)))
    let x6 ← x3.countPeriods x1 (⟨none, .M, by decide⟩ : Freq) .any none
    check 257 (decide (x6 = ((2911 : Rat) / 930)))
    pure ()) = true := by decide +kernel

/-- timeboard/tests/test_interval_methods.py 259: `TestIntervalDaysCountPeriodsM.test_interval_d_count_periods_m_with_gap`. -/
example : passes (do
    let (x1, x2) ← Timeboard.new (L := V) { freq := (⟨none, .D, by decide⟩ : Freq), start := (ts 2016 11 28), stop := (ts 2017 5 2), layout := .organizer (.marker { each := (⟨none, .W none, by decide⟩ : Freq), ats := [] }) [.pattern (.list [(.i 1), (.i 1), (.i 1), (.i 1), (.i 1), (.i 0), (.i 0)])], selector := V.truthy, defaultLabel := V.none, amendments := [((ts 2017 2 1), (.i 0)), ((ts 2017 2 2), (.i 0)), ((ts 2017 2 3), (.i 0)), ((ts 2017 2 4), (.i 0)), ((ts 2017 2 5), (.i 0)), ((ts 2017 2 6), (.i 0)), ((ts 2017 2 7), (.i 0)), ((ts 2017 2 8), (.i 0)), ((ts 2017 2 9), (.i 0)), ((ts 2017 2 10), (.i 0)), ((ts 2017 2 11), (.i 0)), ((ts 2017 2 12), (.i 0)), ((ts 2017 2 13), (.i 0)), ((ts 2017 2 14), (.i 0)), ((ts 2017 2 15), (.i 0)), ((ts 2017 2 16), (.i 0)), ((ts 2017 2 17), (.i 0)), ((ts 2017 2 18), (.i 0)), ((ts 2017 2 19), (.i 0)), ((ts 2017 2 20), (.i 0)), ((ts 2017 2 21), (.i 0)), ((ts 2017 2 22), (.i 0)), ((ts 2017 2 23), (.i 0)), ((ts 2017 2 24), (.i 0)), ((ts 2017 2 25), (.i 0)), ((ts 2017 2 26), (.i 0)), ((ts 2017 2 27), (.i 0)), ((ts 2017 2 28), (.i 0))] } (noHeap : Heap V)
    let x3 ← x1.getInterval (some (.pair (some (ts 2016 12 29)) (some (ts 2017 4 1)))) none none true "11" none
    let x4 ← x3.countPeriods x1 (⟨none, .M, by decide⟩ : Freq) .on none
    check 271 (decide (x4 = ((23 : Rat) / 11)))
    let x5 ← x3.countPeriods x1 (⟨none, .M, by decide⟩ : Freq) .off none
    check 272 (decide (x5 = ((289 : Rat) / 90)))
    let x6 ← x3.countPeriods x1 (⟨none, .M, by decide⟩ : Freq) .any none
    check 273 (decide (x6 = ((2911 : Rat) / 930)))
    pure ()) = true := by decide +kernel

/-- timeboard/tests/test_interval_methods.py 276: `TestIntervalDaysCountPeriodsM.test_interval_d_count_periods_m_part_part`. -/
example : passes (do
    let (x1, x2) ← Timeboard.new (L := V) { freq := (⟨none, .D, by decide⟩ : Freq), start := (ts 2016 11 28), stop := (ts 2017 5 2), layout := .organizer (.marker { each := (⟨none, .W none, by decide⟩ : Freq), ats := [] }) [.pattern (.list [(.i 1), (.i 1), (.i 1), (.i 1), (.i 1), (.i 0), (.i 0)])], selector := V.truthy, defaultLabel := V.none, amendments := [((ts 2017 1 1), (.i 0)), ((ts 2017 1 2), (.i 0)), ((ts 2017 1 3), (.i 0)), ((ts 2017 1 4), (.i 0)), ((ts 2017 1 5), (.i 0)), ((ts 2017 1 6), (.i 0)), ((ts 2017 1 7), (.i 0)), ((ts 2017 1 8), (.i 0)), ((ts 2017 1 9), (.i 0)), ((ts 2017 1 10), (.i 0))] } (noHeap : Heap V)
    let x3 ← x1.getInterval (some (.pair (some (ts 2016 12 29)) (some (ts 2017 1 13)))) none none true "11" none
    let x4 ← x3.countPeriods x1 (⟨none, .M, by decide⟩ : Freq) .on none
    check 279 (decide (x4 = ((16 : Rat) / 55)))
    let x5 ← x3.countPeriods x1 (⟨none, .M, by decide⟩ : Freq) .off none
    check 280 (decide (x5 = ((53 : Rat) / 72)))
    let x6 ← x3.countPeriods x1 (⟨none, .M, by decide⟩ : Freq) .any none
    check 281 (decide (x6 = ((16 : Rat) / 31)))
    pure ()) = true := by decide +kernel

/-- timeboard/tests/test_interval_methods.py 283: `TestIntervalDaysCountPeriodsM.test_interval_d_count_periods_m_part_within`. -/
example : passes (do
    let (x1, x2) ← Timeboard.new (L := V) { freq := (⟨none, .D, by decide⟩ : Freq), start := (ts 2016 11 28), stop := (ts 2017 5 2), layout := .organizer (.marker { each := (⟨none, .W none, by decide⟩ : Freq), ats := [] }) [.pattern (.list [(.i 1), (.i 1), (.i 1), (.i 1), (.i 1), (.i 0), (.i 0)])], selector := V.truthy, defaultLabel := V.none, amendments := [((ts 2017 1 1), (.i 0)), ((ts 2017 1 2), (.i 0)), ((ts 2017 1 3), (.i 0)), ((ts 2017 1 4), (.i 0)), ((ts 2017 1 5), (.i 0)), ((ts 2017 1 6), (.i 0)), ((ts 2017 1 7), (.i 0)), ((ts 2017 1 8), (.i 0)), ((ts 2017 1 9), (.i 0)), ((ts 2017 1 10), (.i 0))] } (noHeap : Heap V)
    let x3 ← x1.getInterval (some (.pair (some (ts 2017 2 6)) (some (ts 2017 2 12)))) none none true "11" none
    let x4 ← x3.countPeriods x1 (⟨none, .M, by decide⟩ : Freq) .on none
    check 286 (decide (x4 = ((1 : Rat) / 4)))
    let x5 ← x3.countPeriods x1 (⟨none, .M, by decide⟩ : Freq) .off none
    check 287 (decide (x5 = ((1 : Rat) / 4)))
    let x6 ← x3.countPeriods x1 (⟨none, .M, by decide⟩ : Freq) .any none
    check 288 (decide (x6 = ((1 : Rat) / 4)))
    pure ()) = true := by decide +kernel

/-- timeboard/tests/test_interval_methods.py 290: `TestIntervalDaysCountPeriodsM.test_interval_d_count_periods_m_exact`. -/
example : passes (do
    let (x1, x2) ← Timeboard.new (L := V) { freq := (⟨none, .D, by decide⟩ : Freq), start := (ts 2016 11 28), stop := (ts 2017 5 2), layout := .organizer (.marker { each := (⟨none, .W none, by decide⟩ : Freq), ats := [] }) [.pattern (.list [(.i 1), (.i 1), (.i 1), (.i 1), (.i 1), (.i 0), (.i 0)])], selector := V.truthy, defaultLabel := V.none, amendments := [((ts 2017 1 1), (.i 0)), ((ts 2017 1 2), (.i 0)), ((ts 2017 1 3), (.i 0)), ((ts 2017 1 4), (.i 0)), ((ts 2017 1 5), (.i 0)), ((ts 2017 1 6), (.i 0)), ((ts 2017 1 7), (.i 0)), ((ts 2017 1 8), (.i 0)), ((ts 2017 1 9), (.i 0)), ((ts 2017 1 10), (.i 0))] } (noHeap : Heap V)
    let x3 ← x1.getInterval (some (.pair (some (ts 2017 1 1)) (some (ts 2017 1 31)))) none none true "11" none
    let x4 ← x3.countPeriods x1 (⟨none, .M, by decide⟩ : Freq) .on none
    check 293 (decide (x4 = (1 : Rat)))
    let x5 ← x3.countPeriods x1 (⟨none, .M, by decide⟩ : Freq) .off none
    check 294 (decide (x5 = (1 : Rat)))
    let x6 ← x3.countPeriods x1 (⟨none, .M, by decide⟩ : Freq) .any none
    check 295 (decide (x6 = (1 : Rat)))
    let x7 ← x1.getInterval (some (.pair (some (ts 2017 1 9)) (some (ts 2017 1 31)))) none none true "11" none
    let x8 ← x7.countPeriods x1 (⟨none, .M, by decide⟩ : Freq) .on none
    check 297 (decide (x8 = (1 : Rat)))
    let x9 ← x7.countPeriods x1 (⟨none, .M, by decide⟩ : Freq) .off none
    check 298 (decide (x9 = ((1 : Rat) / 2)))
    let x10 ← x7.countPeriods x1 (⟨none, .M, by decide⟩ : Freq) .any none
    check 299 (decide (x10 = ((23 : Rat) / 31)))
    let x11 ← x1.getInterval (some (.pair (some (ts 2017 1 1)) (some (ts 2017 1 29)))) none none true "11" none
    let x12 ← x11.countPeriods x1 (⟨none, .M, by decide⟩ : Freq) .on none
    check 301 (decide (x12 = ((13 : Rat) / 15)))
    let x13 ← x11.countPeriods x1 (⟨none, .M, by decide⟩ : Freq) .off none
    check 302 (decide (x13 = (1 : Rat)))
    let x14 ← x11.countPeriods x1 (⟨none, .M, by decide⟩ : Freq) .any none
    check 303 (decide (x14 = ((29 : Rat) / 31)))
    pure ()) = true := by decide +kernel

/-- timeboard/tests/test_interval_methods.py 308: `TestIntervalDaysCountPeriodsCornerCases.test_interval_d_count_periods_extending_outside_tb`. -/
example : passes (do
    let (x1, x2) ← Timeboard.new (L := V) { freq := (⟨none, .D, by decide⟩ : Freq), start := (ts 2016 11 28), stop := (ts 2017 5 2), layout := .organizer (.marker { each := (⟨none, .W none, by decide⟩ : Freq), ats := [] }) [.pattern (.list [(.i 1), (.i 1), (.i 1), (.i 1), (.i 1), (.i 0), (.i 0)])], selector := V.truthy, defaultLabel := V.none, amendments := [((ts 2017 1 1), (.i 0)), ((ts 2017 1 2), (.i 0)), ((ts 2017 1 3), (.i 0)), ((ts 2017 1 4), (.i 0)), ((ts 2017 1 5), (.i 0)), ((ts 2017 1 6), (.i 0)), ((ts 2017 1 7), (.i 0)), ((ts 2017 1 8), (.i 0)), ((ts 2017 1 9), (.i 0)), ((ts 2017 1 10), (.i 0))] } (noHeap : Heap V)
    let x3 ← x1.getInterval (some (.pair (some (ts 2016 11 29)) (some (ts 2016 12 1)))) none none true "11" none
    raises 312 [.partialOutOfBounds] (do
      let x4 ← x3.countPeriods x1 (⟨none, .M, by decide⟩ : Freq) .on none
      pure ())
    let x5 ← x3.countPeriods x1 (⟨none, .M, by decide⟩ : Freq) .off none
    check 317 (decide (x5 = (0 : Rat)))
    let x6 ← x1.getInterval (some (.pair (some (ts 2017 4 24)) (some (ts 2017 5 1)))) none none true "11" none
    raises 320 [.partialOutOfBounds] (do
      let x7 ← x6.countPeriods x1 (⟨none, .M, by decide⟩ : Freq) .on none
      pure ())
    pure ()) = true := by decide +kernel

/-- timeboard/tests/test_interval_methods.py 324: `TestIntervalDaysCountPeriodsCornerCases.test_interval_d_count_periods_m_no_such_duty_in_ivl`. -/
example : passes (do
    let (x1, x2) ← Timeboard.new (L := V) { freq := (⟨none, .D, by decide⟩ : Freq), start := (ts 2016 11 28), stop := (ts 2017 5 2), layout := .organizer (.marker { each := (⟨none, .W none, by decide⟩ : Freq), ats := [] }) [.pattern (.list [(.i 1), (.i 1), (.i 1), (.i 1), (.i 1), (.i 0), (.i 0)])], selector := V.truthy, defaultLabel := V.none, amendments := [((ts 2017 1 1), (.i 0)), ((ts 2017 1 2), (.i 0)), ((ts 2017 1 3), (.i 0)), ((ts 2017 1 4), (.i 0)), ((ts 2017 1 5), (.i 0)), ((ts 2017 1 6), (.i 0)), ((ts 2017 1 7), (.i 0)), ((ts 2017 1 8), (.i 0)), ((ts 2017 1 9), (.i 0)), ((ts 2017 1 10), (.i 0))] } (noHeap : Heap V)
    let x3 ← x1.getInterval (some (.pair (some (ts 2017 1 1)) (some (ts 2017 1 10)))) none none true "11" none
    let x4 ← x3.countPeriods x1 (⟨none, .M, by decide⟩ : Freq) .on none
    check 328 (decide (x4 = (0 : Rat)))
    let x5 ← x1.getInterval (some (.pair (some (ts 2016 12 31)) (some (ts 2017 1 10)))) none none true "11" none
    let x6 ← x5.countPeriods x1 (⟨none, .M, by decide⟩ : Freq) .on none
    check 331 (decide (x6 = (0 : Rat)))
    let x7 ← x1.getInterval (some (.pair (some (ts 2017 1 30)) (some (ts 2017 1 31)))) none none true "11" none
    let x8 ← x7.countPeriods x1 (⟨none, .M, by decide⟩ : Freq) .off none
    check 334 (decide (x8 = (0 : Rat)))
    let x9 ← x1.getInterval (some (.pair (some (ts 2017 1 30)) (some (ts 2017 2 3)))) none none true "11" none
    let x10 ← x9.countPeriods x1 (⟨none, .M, by decide⟩ : Freq) .off none
    check 337 (decide (x10 = (0 : Rat)))
    pure ()) = true := by decide +kernel

/-- timeboard/tests/test_interval_methods.py 339: `TestIntervalDaysCountPeriodsCornerCases.test_interval_d_count_periods_w_no_such_duty_in_period`. -/
example : passes (do
    let (x1, x2) ← Timeboard.new (L := V) { freq := (⟨none, .D, by decide⟩ : Freq), start := (ts 2016 11 28), stop := (ts 2017 5 2), layout := .organizer (.marker { each := (⟨none, .W none, by decide⟩ : Freq), ats := [] }) [.pattern (.list [(.i 1), (.i 1), (.i 1), (.i 1), (.i 1), (.i 0), (.i 0)])], selector := V.truthy, defaultLabel := V.none, amendments := [((ts 2017 1 1), (.i 0)), ((ts 2017 1 2), (.i 0)), ((ts 2017 1 3), (.i 0)), ((ts 2017 1 4), (.i 0)), ((ts 2017 1 5), (.i 0)), ((ts 2017 1 6), (.i 0)), ((ts 2017 1 7), (.i 0)), ((ts 2017 1 8), (.i 0)), ((ts 2017 1 9), (.i 0)), ((ts 2017 1 10), (.i 0))] } (noHeap : Heap V)
    let x3 ← x1.getInterval (some (.pair (some (ts 2017 1 2)) (some (ts 2017 1 8)))) none none true "11" none
    let x4 ← x3.countPeriods x1 (⟨none, .W none, by decide⟩ : Freq) .on none
    check 342 (decide (x4 = (0 : Rat)))
    let x5 ← x1.getInterval (some (.pair (some (ts 2017 1 2)) (some (ts 2017 1 10)))) none none true "11" none
    let x6 ← x5.countPeriods x1 (⟨none, .W none, by decide⟩ : Freq) .on none
    check 344 (decide (x6 = (0 : Rat)))
    let x7 ← x1.getInterval (some (.pair (some (ts 2017 1 2)) (some (ts 2017 1 11)))) none none true "11" none
    let x8 ← x7.countPeriods x1 (⟨none, .W none, by decide⟩ : Freq) .on none
    check 346 (decide (x8 = ((1 : Rat) / 3)))
    let x9 ← x1.getInterval (some (.pair (some (ts 2017 1 2)) (some (ts 2017 1 13)))) none none true "11" none
    let x10 ← x9.countPeriods x1 (⟨none, .W none, by decide⟩ : Freq) .on none
    check 348 (decide (x10 = (1 : Rat)))
    pure ()) = true := by decide +kernel

/-- timeboard/tests/test_interval_methods.py 350: `TestIntervalDaysCountPeriodsCornerCases.test_interval_d_count_periods_same_freq`. -/
example : passes (do
    let (x1, x2) ← Timeboard.new (L := V) { freq := (⟨none, .D, by decide⟩ : Freq), start := (ts 2016 11 28), stop := (ts 2017 5 2), layout := .organizer (.marker { each := (⟨none, .W none, by decide⟩ : Freq), ats := [] }) [.pattern (.list [(.i 1), (.i 1), (.i 1), (.i 1), (.i 1), (.i 0), (.i 0)])], selector := V.truthy, defaultLabel := V.none, amendments := [((ts 2017 1 1), (.i 0)), ((ts 2017 1 2), (.i 0)), ((ts 2017 1 3), (.i 0)), ((ts 2017 1 4), (.i 0)), ((ts 2017 1 5), (.i 0)), ((ts 2017 1 6), (.i 0)), ((ts 2017 1 7), (.i 0)), ((ts 2017 1 8), (.i 0)), ((ts 2017 1 9), (.i 0)), ((ts 2017 1 10), (.i 0))] } (noHeap : Heap V)
    let x3 ← x1.getInterval (some (.pair (some (ts 2017 3 30)) (some (ts 2017 4 1)))) none none true "11" none
    let x4 ← x3.countPeriods x1 (⟨none, .D, by decide⟩ : Freq) .on none
    check 353 (decide (x4 = (2 : Rat)))
    let x5 ← x3.countPeriods x1 (⟨none, .D, by decide⟩ : Freq) .off none
    check 354 (decide (x5 = (1 : Rat)))
    let x6 ← x3.countPeriods x1 (⟨none, .D, by decide⟩ : Freq) .any none
    check 355 (decide (x6 = (3 : Rat)))
    pure ()) = true := by decide +kernel

/-- timeboard/tests/test_interval_methods.py 357: `TestIntervalDaysCountPeriodsCornerCases.test_interval_d_count_periods_higher_freq`. -/
example : passes (do
    let (x1, x2) ← Timeboard.new (L := V) { freq := (⟨none, .D, by decide⟩ : Freq), start := (ts 2016 11 28), stop := (ts 2017 5 2), layout := .organizer (.marker { each := (⟨none, .W none, by decide⟩ : Freq), ats := [] }) [.pattern (.list [(.i 1), (.i 1), (.i 1), (.i 1), (.i 1), (.i 0), (.i 0)])], selector := V.truthy, defaultLabel := V.none, amendments := [((ts 2017 1 1), (.i 0)), ((ts 2017 1 2), (.i 0)), ((ts 2017 1 3), (.i 0)), ((ts 2017 1 4), (.i 0)), ((ts 2017 1 5), (.i 0)), ((ts 2017 1 6), (.i 0)), ((ts 2017 1 7), (.i 0)), ((ts 2017 1 8), (.i 0)), ((ts 2017 1 9), (.i 0)), ((ts 2017 1 10), (.i 0))] } (noHeap : Heap V)
    let x3 ← x1.getInterval (some (.pair (some (ts 2017 3 30)) (some (ts 2017 4 1)))) none none true "11" none
    raises 360 [.unacceptablePeriod] (do
      let x4 ← x3.countPeriods x1 (⟨none, .H, by decide⟩ : Freq) .on none
      pure ())
    raises 362 [.unacceptablePeriod] (do
      let x5 ← x3.countPeriods x1 (⟨none, .T, by decide⟩ : Freq) .on none
      pure ())
    pure ()) = true := by decide +kernel

/-- timeboard/tests/test_interval_methods.py 365: `TestIntervalDaysCountPeriodsCornerCases.test_interval_d_count_periods_unsupported`. Left out (arguments which the model cannot express): lines 377, 377, 377, 377, 377, 377, 377, 377, 377, 377, 377, 377. -/
example : passes (do
    let (x1, x2) ← Timeboard.new (L := V) { freq := (⟨none, .D, by decide⟩ : Freq), start := (ts 2016 11 28), stop := (ts 2017 5 2), layout := .organizer (.marker { each := (⟨none, .W none, by decide⟩ : Freq), ats := [] }) [.pattern (.list [(.i 1), (.i 1), (.i 1), (.i 1), (.i 1), (.i 0), (.i 0)])], selector := V.truthy, defaultLabel := V.none, amendments := [((ts 2017 1 1), (.i 0)), ((ts 2017 1 2), (.i 0)), ((ts 2017 1 3), (.i 0)), ((ts 2017 1 4), (.i 0)), ((ts 2017 1 5), (.i 0)), ((ts 2017 1 6), (.i 0)), ((ts 2017 1 7), (.i 0)), ((ts 2017 1 8), (.i 0)), ((ts 2017 1 9), (.i 0)), ((ts 2017 1 10), (.i 0))] } (noHeap : Heap V)
    let x3 ← x1.getInterval (some (.pair (some (ts 2017 3 30)) (some (ts 2017 4 1)))) none none true "11" none
    raises 372 [.unacceptablePeriod] (do
      let x4 ← x3.countPeriods x1 (⟨some 5, .D, by decide⟩ : Freq) .on none
      pure ())
    raises 372 [.unacceptablePeriod] (do
      let x5 ← x3.countPeriods x1 (⟨some 4, .W none, by decide⟩ : Freq) .on none
      pure ())
    raises 372 [.unacceptablePeriod] (do
      let x6 ← x3.countPeriods x1 (⟨some 3, .M, by decide⟩ : Freq) .on none
      pure ())
    raises 372 [.unacceptablePeriod] (do
      let x7 ← x3.countPeriods x1 (⟨some 2, .A none, by decide⟩ : Freq) .on none
      pure ())
    raises 372 [.unacceptablePeriod] (do
      let x8 ← x3.countPeriods x1 (⟨some 2, .Q none, by decide⟩ : Freq) .on none
      pure ())
    pure ()) = true := by decide +kernel

/-- timeboard/tests/test_interval_methods.py 424: `TestIntervalCountPeriodsCornerCases.test_ivl_count_periods_shorter_than_ws_at_start`. -/
example : passes (do
    let (x1, x2) ← Timeboard.new (L := V) { freq := (⟨none, .T, by decide⟩ : Freq), start := (ts 2017 10 1), stop := (ts 2017 10 1 14 59), layout := .organizer (.marks [(ts 2017 10 1 3 5), (ts 2017 10 1 6 5), (ts 2017 10 1 9 5), (ts 2017 10 1 12 5)]) [.label (.i 0), .organizer (.marker { each := (⟨some 30, .T, by decide⟩ : Freq), ats := [] }) [.label (.i 0), .label (.i 1)], .label (.i 0), .organizer (.marker { each := (⟨some 30, .T, by decide⟩ : Freq), ats := [] }) [.label (.i 0), .label (.i 1)], .label (.i 0)], selector := V.truthy, defaultLabel := V.none } (noHeap : Heap V)
    let x3 ← Interval.new x1 (0, 3) none
    raises 428 [.unacceptablePeriod] (do
      let x4 ← x3.countPeriods x1 (⟨none, .H, by decide⟩ : Freq) .on none
      pure ())
    raises 430 [.unacceptablePeriod] (do
      let x5 ← x3.countPeriods x1 (⟨none, .H, by decide⟩ : Freq) .off none
      pure ())
    raises 432 [.unacceptablePeriod] (do
      let x6 ← x3.countPeriods x1 (⟨none, .H, by decide⟩ : Freq) .any none
      pure ())
    pure ()) = true := by decide +kernel

/-- timeboard/tests/test_interval_methods.py 435: `TestIntervalCountPeriodsCornerCases.test_ivl_count_periods_shorter_than_ws_at_mid`. -/
example : passes (do
    let (x1, x2) ← Timeboard.new (L := V) { freq := (⟨none, .T, by decide⟩ : Freq), start := (ts 2017 10 1), stop := (ts 2017 10 1 14 59), layout := .organizer (.marks [(ts 2017 10 1 3 5), (ts 2017 10 1 6 5), (ts 2017 10 1 9 5), (ts 2017 10 1 12 5)]) [.label (.i 0), .organizer (.marker { each := (⟨some 30, .T, by decide⟩ : Freq), ats := [] }) [.label (.i 0), .label (.i 1)], .label (.i 0), .organizer (.marker { each := (⟨some 30, .T, by decide⟩ : Freq), ats := [] }) [.label (.i 0), .label (.i 1)], .label (.i 0)], selector := V.truthy, defaultLabel := V.none } (noHeap : Heap V)
    let x3 ← Interval.new x1 (5, 9) none
    raises 439 [.unacceptablePeriod] (do
      let x4 ← x3.countPeriods x1 (⟨none, .H, by decide⟩ : Freq) .on none
      pure ())
    raises 441 [.unacceptablePeriod] (do
      let x5 ← x3.countPeriods x1 (⟨none, .H, by decide⟩ : Freq) .off none
      pure ())
    raises 443 [.unacceptablePeriod] (do
      let x6 ← x3.countPeriods x1 (⟨none, .H, by decide⟩ : Freq) .any none
      pure ())
    pure ()) = true := by decide +kernel

/-- timeboard/tests/test_interval_methods.py 446: `TestIntervalCountPeriodsCornerCases.test_ivl_count_periods_shorter_than_ws_at_end`. -/
example : passes (do
    let (x1, x2) ← Timeboard.new (L := V) { freq := (⟨none, .T, by decide⟩ : Freq), start := (ts 2017 10 1), stop := (ts 2017 10 1 14 59), layout := .organizer (.marks [(ts 2017 10 1 3 5), (ts 2017 10 1 6 5), (ts 2017 10 1 9 5), (ts 2017 10 1 12 5)]) [.label (.i 0), .organizer (.marker { each := (⟨some 30, .T, by decide⟩ : Freq), ats := [] }) [.label (.i 0), .label (.i 1)], .label (.i 0), .organizer (.marker { each := (⟨some 30, .T, by decide⟩ : Freq), ats := [] }) [.label (.i 0), .label (.i 1)], .label (.i 0)], selector := V.truthy, defaultLabel := V.none } (noHeap : Heap V)
    let x3 ← Interval.new x1 (12, 14) none
    raises 450 [.unacceptablePeriod] (do
      let x4 ← x3.countPeriods x1 (⟨none, .H, by decide⟩ : Freq) .on none
      pure ())
    raises 452 [.unacceptablePeriod] (do
      let x5 ← x3.countPeriods x1 (⟨none, .H, by decide⟩ : Freq) .off none
      pure ())
    raises 454 [.unacceptablePeriod] (do
      let x6 ← x3.countPeriods x1 (⟨none, .H, by decide⟩ : Freq) .any none
      pure ())
    pure ()) = true := by decide +kernel

/-- timeboard/tests/test_interval_methods.py 457: `TestIntervalCountPeriodsCornerCases.test_ivl_count_periods_avoiding_long_ws`. -/
example : passes (do
    let (x1, x2) ← Timeboard.new (L := V) { freq := (⟨none, .T, by decide⟩ : Freq), start := (ts 2017 10 1), stop := (ts 2017 10 1 14 59), layout := .organizer (.marks [(ts 2017 10 1 3 5), (ts 2017 10 1 6 5), (ts 2017 10 1 9 5), (ts 2017 10 1 12 5)]) [.label (.i 0), .organizer (.marker { each := (⟨some 30, .T, by decide⟩ : Freq), ats := [] }) [.label (.i 0), .label (.i 1)], .label (.i 0), .organizer (.marker { each := (⟨some 30, .T, by decide⟩ : Freq), ats := [] }) [.label (.i 0), .label (.i 1)], .label (.i 0)], selector := V.truthy, defaultLabel := V.none } (noHeap : Heap V)
    let x3 ← Interval.new x1 (1, 3) none
    let x4 ← x3.countPeriods x1 (⟨none, .H, by decide⟩ : Freq) .on none
    check 462 (decide (x4 = (1 : Rat)))
    let x5 ← x3.countPeriods x1 (⟨none, .H, by decide⟩ : Freq) .off none
    check 463 (decide (x5 = (2 : Rat)))
    let x6 ← x3.countPeriods x1 (⟨none, .H, by decide⟩ : Freq) .any none
    check 464 (decide (x6 = ((3 : Rat) / 2)))
    pure ()) = true := by decide +kernel

/-- timeboard/tests/test_interval_methods.py 466: `TestIntervalCountPeriodsCornerCases.test_ivl_count_periods_long_ws_caught_by_period`. -/
example : passes (do
    let (x1, x2) ← Timeboard.new (L := V) { freq := (⟨none, .T, by decide⟩ : Freq), start := (ts 2017 10 1), stop := (ts 2017 10 1 14 59), layout := .organizer (.marks [(ts 2017 10 1 3 5), (ts 2017 10 1 6 5), (ts 2017 10 1 9 5), (ts 2017 10 1 12 5)]) [.label (.i 0), .organizer (.marker { each := (⟨some 30, .T, by decide⟩ : Freq), ats := [] }) [.label (.i 0), .label (.i 1)], .label (.i 0), .organizer (.marker { each := (⟨some 30, .T, by decide⟩ : Freq), ats := [] }) [.label (.i 0), .label (.i 1)], .label (.i 0)], selector := V.truthy, defaultLabel := V.none, refEnd := true } (noHeap : Heap V)
    let x3 ← Interval.new x1 (1, 3) none
    let x4 ← x3.countPeriods x1 (⟨none, .H, by decide⟩ : Freq) .on none
    check 473 (decide (x4 = (1 : Rat)))
    let x5 ← x3.countPeriods x1 (⟨none, .H, by decide⟩ : Freq) .off none
    check 474 (decide (x5 = ((3 : Rat) / 2)))
    let x6 ← x3.countPeriods x1 (⟨none, .H, by decide⟩ : Freq) .any none
    check 475 (decide (x6 = ((3 : Rat) / 2)))
    pure ()) = true := by decide +kernel

/-- timeboard/tests/test_interval_methods.py 480: `TestIntervalWhatPortionOf.test_ivl_whatportion_other_is_longer`. -/
example : passes (do
    let (x1, x2) ← Timeboard.new (L := V) { freq := (⟨none, .D, by decide⟩ : Freq), start := (ts 2016 12 31), stop := (ts 2017 1 12), layout := .pattern (.list [(.i 0), (.i 1), (.i 0), (.i 0), (.i 2), (.i 0)]), selector := V.truthy, defaultLabel := V.none } (noHeap : Heap V)
    let x3 ← Interval.new x1 (2, 6) none
    let x4 ← Interval.new x1 (2, 8) none
    let x5 ← x3.whatPortionOf x1 x4 .on none
    check 484 (decide (x5 = ((1 : Rat) / 2)))
    let x6 ← x3.whatPortionOf x1 x4 .off none
    check 485 (decide (x6 = ((4 : Rat) / 5)))
    let x7 ← x3.whatPortionOf x1 x4 .any none
    check 486 (decide (x7 = ((5 : Rat) / 7)))
    let x8 ← Interval.new x1 (5, 8) none
    let x9 ← x8.whatPortionOf x1 x4 .on none
    check 489 (decide (x9 = ((1 : Rat) / 2)))
    let x10 ← x8.whatPortionOf x1 x4 .off none
    check 490 (decide (x10 = ((3 : Rat) / 5)))
    let x11 ← x8.whatPortionOf x1 x4 .any none
    check 491 (decide (x11 = ((4 : Rat) / 7)))
    let x12 ← Interval.new x1 (3, 6) none
    let x13 ← x12.whatPortionOf x1 x4 .on none
    check 494 (decide (x13 = ((1 : Rat) / 2)))
    let x14 ← x12.whatPortionOf x1 x4 .off none
    check 495 (decide (x14 = ((3 : Rat) / 5)))
    let x15 ← x12.whatPortionOf x1 x4 .any none
    check 496 (decide (x15 = ((4 : Rat) / 7)))
    pure ()) = true := by decide +kernel

/-- timeboard/tests/test_interval_methods.py 498: `TestIntervalWhatPortionOf.test_ivl_whatportion_operator_div`. -/
example : passes (do
    let (x1, x2) ← Timeboard.new (L := V) { freq := (⟨none, .D, by decide⟩ : Freq), start := (ts 2016 12 31), stop := (ts 2017 1 12), layout := .pattern (.list [(.i 0), (.i 1), (.i 0), (.i 0), (.i 2), (.i 0)]), selector := V.truthy, defaultLabel := V.none } (noHeap : Heap V)
    let x3 ← Interval.new x1 (2, 6) none
    let x4 ← Interval.new x1 (2, 8) none
    let x5 ← x3.whatPortionOf x1 x4
    check 502 (decide (x5 = ((1 : Rat) / 2)))
    pure ()) = true := by decide +kernel

/-- timeboard/tests/test_interval_methods.py 504: `TestIntervalWhatPortionOf.test_ivl_whatportion_other_is_the_same`. -/
example : passes (do
    let (x1, x2) ← Timeboard.new (L := V) { freq := (⟨none, .D, by decide⟩ : Freq), start := (ts 2016 12 31), stop := (ts 2017 1 12), layout := .pattern (.list [(.i 0), (.i 1), (.i 0), (.i 0), (.i 2), (.i 0)]), selector := V.truthy, defaultLabel := V.none } (noHeap : Heap V)
    let x3 ← Interval.new x1 (2, 8) none
    let x4 ← Interval.new x1 (2, 8) none
    let x5 ← x4.whatPortionOf x1 x3 .on none
    check 508 (decide (x5 = (1 : Rat)))
    let x6 ← x4.whatPortionOf x1 x3 .off none
    check 509 (decide (x6 = (1 : Rat)))
    let x7 ← x4.whatPortionOf x1 x3 .any none
    check 510 (decide (x7 = (1 : Rat)))
    pure ()) = true := by decide +kernel

/-- timeboard/tests/test_interval_methods.py 512: `TestIntervalWhatPortionOf.test_ivl_whatportion_other_is_shorter`. -/
example : passes (do
    let (x1, x2) ← Timeboard.new (L := V) { freq := (⟨none, .D, by decide⟩ : Freq), start := (ts 2016 12 31), stop := (ts 2017 1 12), layout := .pattern (.list [(.i 0), (.i 1), (.i 0), (.i 0), (.i 2), (.i 0)]), selector := V.truthy, defaultLabel := V.none } (noHeap : Heap V)
    let x3 ← Interval.new x1 (2, 8) none
    let x4 ← Interval.new x1 (2, 10) none
    let x5 ← x4.whatPortionOf x1 x3 .on none
    check 517 (decide (x5 = (1 : Rat)))
    let x6 ← x4.whatPortionOf x1 x3 .off none
    check 518 (decide (x6 = (1 : Rat)))
    let x7 ← x4.whatPortionOf x1 x3 .any none
    check 519 (decide (x7 = (1 : Rat)))
    let x8 ← Interval.new x1 (0, 8) none
    let x9 ← x8.whatPortionOf x1 x3 .on none
    check 522 (decide (x9 = (1 : Rat)))
    let x10 ← x8.whatPortionOf x1 x3 .off none
    check 523 (decide (x10 = (1 : Rat)))
    let x11 ← x8.whatPortionOf x1 x3 .any none
    check 524 (decide (x11 = (1 : Rat)))
    let x12 ← Interval.new x1 (2, 12) none
    let x13 ← x12.whatPortionOf x1 x3 .on none
    check 527 (decide (x13 = (1 : Rat)))
    let x14 ← x12.whatPortionOf x1 x3 .off none
    check 528 (decide (x14 = (1 : Rat)))
    let x15 ← x12.whatPortionOf x1 x3 .any none
    check 529 (decide (x15 = (1 : Rat)))
    pure ()) = true := by decide +kernel

/-- timeboard/tests/test_interval_methods.py 531: `TestIntervalWhatPortionOf.test_ivl_whatportion_other_is_outside_ivl`. -/
example : passes (do
    let (x1, x2) ← Timeboard.new (L := V) { freq := (⟨none, .D, by decide⟩ : Freq), start := (ts 2016 12 31), stop := (ts 2017 1 12), layout := .pattern (.list [(.i 0), (.i 1), (.i 0), (.i 0), (.i 2), (.i 0)]), selector := V.truthy, defaultLabel := V.none } (noHeap : Heap V)
    let x3 ← Interval.new x1 (2, 8) none
    let x4 ← Interval.new x1 (9, 10) none
    let x5 ← x4.whatPortionOf x1 x3 .on none
    check 535 (decide (x5 = (0 : Rat)))
    let x6 ← x4.whatPortionOf x1 x3 .off none
    check 536 (decide (x6 = (0 : Rat)))
    let x7 ← x4.whatPortionOf x1 x3 .any none
    check 537 (decide (x7 = (0 : Rat)))
    pure ()) = true := by decide +kernel

/-- timeboard/tests/test_interval_methods.py 539: `TestIntervalWhatPortionOf.test_ivl_whatportion_intersection_lacks_duty`. -/
example : passes (do
    let (x1, x2) ← Timeboard.new (L := V) { freq := (⟨none, .D, by decide⟩ : Freq), start := (ts 2016 12 31), stop := (ts 2017 1 12), layout := .pattern (.list [(.i 0), (.i 1), (.i 0), (.i 0), (.i 2), (.i 0)]), selector := V.truthy, defaultLabel := V.none } (noHeap : Heap V)
    let x3 ← Interval.new x1 (5, 9) none
    let x4 ← Interval.new x1 (2, 6) none
    let x5 ← x4.whatPortionOf x1 x3 .on none
    check 543 (decide (x5 = (0 : Rat)))
    let x6 ← x4.whatPortionOf x1 x3 .off none
    check 544 (decide (x6 = ((1 : Rat) / 2)))
    let x7 ← x4.whatPortionOf x1 x3 .any none
    check 545 (decide (x7 = ((2 : Rat) / 5)))
    let x8 ← Interval.new x1 (7, 7) none
    let x9 ← x8.whatPortionOf x1 x3 .on none
    check 548 (decide (x9 = (1 : Rat)))
    let x10 ← x8.whatPortionOf x1 x3 .off none
    check 549 (decide (x10 = (0 : Rat)))
    let x11 ← x8.whatPortionOf x1 x3 .any none
    check 550 (decide (x11 = ((1 : Rat) / 5)))
    let x12 ← Interval.new x1 (7, 7) none
    let x13 ← Interval.new x1 (5, 9) none
    let x14 ← x13.whatPortionOf x1 x12 .on none
    check 554 (decide (x14 = (1 : Rat)))
    let x15 ← x13.whatPortionOf x1 x12 .off none
    check 555 (decide (x15 = (0 : Rat)))
    let x16 ← x13.whatPortionOf x1 x12 .any none
    check 556 (decide (x16 = (1 : Rat)))
    let x17 ← Interval.new x1 (8, 8) none
    let x18 ← Interval.new x1 (5, 9) none
    let x19 ← x18.whatPortionOf x1 x17 .on none
    check 560 (decide (x19 = (0 : Rat)))
    let x20 ← x18.whatPortionOf x1 x17 .off none
    check 561 (decide (x20 = (1 : Rat)))
    let x21 ← x18.whatPortionOf x1 x17 .any none
    check 562 (decide (x21 = (1 : Rat)))
    pure ()) = true := by decide +kernel

/-- timeboard/tests/test_interval_methods.py 564: `TestIntervalWhatPortionOf.test_ivl_whatportion_of_void_ivl`. -/
example : passes (do
    let (x1, x2) ← Timeboard.new (L := V) { freq := (⟨none, .D, by decide⟩ : Freq), start := (ts 2016 12 31), stop := (ts 2017 1 12), layout := .pattern (.list [(.i 0), (.i 1), (.i 0), (.i 0), (.i 2), (.i 0)]), selector := V.truthy, defaultLabel := V.none } (noHeap : Heap V)
    let x3 ← Interval.new x1 (2, 8) none
    let x4 ← Interval.newVoid x1 (8, 2) none
    let x5 ← x3.whatPortionOf x1 x4 .on none
    check 568 (decide (x5 = (0 : Rat)))
    pure ()) = true := by decide +kernel

/-- timeboard/tests/test_interval_methods.py 570: `TestIntervalWhatPortionOf.test_ivl_whatportion_change_schedule`. -/
example : passes (do
    let (x1, x2) ← Timeboard.new (L := V) { freq := (⟨none, .D, by decide⟩ : Freq), start := (ts 2016 12 31), stop := (ts 2017 1 12), layout := .pattern (.list [(.i 0), (.i 1), (.i 0), (.i 0), (.i 2), (.i 0)]), selector := V.truthy, defaultLabel := V.none } (noHeap : Heap V)
    let (x3, x4) ← x1.addSchedule "sdl" (fun x => x.gt (1 : Rat))
    let (x5, x6) ← x4.addSchedule "sdl_other" (fun x => x.gt (2 : Rat))
    let x7 ← Interval.new x6 (7, 10) (some x5)
    let x8 ← Interval.new x6 (10, 10) none
    let x9 ← x8.whatPortionOf x6 x7 .on none
    check 576 (decide (x9 = ((1 : Rat) / 2)))
    let x10 ← x8.whatPortionOf x6 x7 .on (some x3)
    check 577 (decide (x10 = (1 : Rat)))
    let x11 ← Interval.new x6 (10, 10) (some x3)
    let x12 ← x11.whatPortionOf x6 x7 .on none
    check 580 (decide (x12 = (1 : Rat)))
    let x13 ← x11.whatPortionOf x6 x7 .on (some x6.defaultSchedule)
    check 581 (decide (x13 = ((1 : Rat) / 2)))
    pure ()) = true := by decide +kernel

/-- timeboard/tests/test_interval_methods.py 587: `TestIntervalSchedules.test_ivl_count_with_schedules`. -/
example : passes (do
    let (x1, x2) ← Timeboard.new (L := V) { freq := (⟨none, .D, by decide⟩ : Freq), start := (ts 2016 12 31), stop := (ts 2017 1 12), layout := .pattern (.list [(.i 0), (.i 1), (.i 0), (.i 0), (.i 2), (.i 0)]), selector := V.truthy, defaultLabel := V.none } (noHeap : Heap V)
    let (x3, x4) ← x1.addSchedule "sdl" (fun x => x.gt (1 : Rat))
    let x5 ← x4.callN none none none true "11" none
    let x6 ← asIvl x5
    let x7 ← x4.callN none none none true "11" (some x3)
    let x8 ← asIvl x7
    let x9 ← x6.count x4 .on none
    check 592 (decide (x9 = 4))
    let x10 ← x8.count x4 .on none
    check 593 (decide (x10 = 2))
    let x11 ← x6.count x4 .on (some x3)
    check 594 (decide (x11 = 2))
    let x12 ← x8.count x4 .on (some x4.defaultSchedule)
    check 595 (decide (x12 = 4))
    pure ()) = true := by decide +kernel

/-- timeboard/tests/test_interval_methods.py 597: `TestIntervalSchedules.test_ivl_nth_with_schedules`. -/
example : passes (do
    let (x1, x2) ← Timeboard.new (L := V) { freq := (⟨none, .D, by decide⟩ : Freq), start := (ts 2016 12 31), stop := (ts 2017 1 12), layout := .pattern (.list [(.i 0), (.i 1), (.i 0), (.i 0), (.i 2), (.i 0)]), selector := V.truthy, defaultLabel := V.none } (noHeap : Heap V)
    let (x3, x4) ← x1.addSchedule "sdl" (fun x => x.gt (1 : Rat))
    let x5 ← x4.callN none none none true "11" none
    let x6 ← asIvl x5
    let x7 ← x4.callN none none none true "11" (some x3)
    let x8 ← asIvl x7
    let x9 ← x6.nth x4 1 .on none
    check 603 (decide (x9.loc = 4))
    check 604 (decide (x9.schedule.name = "on_duty"))
    let x10 ← x8.nth x4 1 .on none
    check 606 (decide (x10.loc = 10))
    check 607 (decide (x10.schedule.name = "sdl"))
    let x11 ← x6.nth x4 1 .on (some x3)
    check 609 (decide (x11.loc = 10))
    check 610 (decide (x11.schedule.name = "sdl"))
    let x12 ← x8.nth x4 1 .on (some x4.defaultSchedule)
    check 612 (decide (x12.loc = 4))
    check 613 (decide (x12.schedule.name = "on_duty"))
    pure ()) = true := by decide +kernel

/-- timeboard/tests/test_interval_methods.py 615: `TestIntervalSchedules.test_ivl_nth_with_schedules_OOB`. -/
example : passes (do
    let (x1, x2) ← Timeboard.new (L := V) { freq := (⟨none, .D, by decide⟩ : Freq), start := (ts 2016 12 31), stop := (ts 2017 1 12), layout := .pattern (.list [(.i 0), (.i 1), (.i 0), (.i 0), (.i 2), (.i 0)]), selector := V.truthy, defaultLabel := V.none } (noHeap : Heap V)
    let (x3, x4) ← x1.addSchedule "sdl" (fun x => x.gt (1 : Rat))
    let x5 ← x4.callN none none none true "11" none
    let x6 ← asIvl x5
    let x7 ← x4.callN none none none true "11" (some x3)
    let x8 ← asIvl x7
    let x9 ← x6.nth x4 2 .on none
    check 620 (decide (x9.loc = 7))
    raises 621 [.outOfBounds] (do
      let x10 ← x8.nth x4 2 .on none
      pure ())
    pure ()) = true := by decide +kernel

/-- timeboard/tests/test_interval_methods.py 624: `TestIntervalSchedules.test_ivl_count_periods_with_schedules`. -/
example : passes (do
    let (x1, x2) ← Timeboard.new (L := V) { freq := (⟨none, .H, by decide⟩ : Freq), start := (ts 2017 10 1), stop := (ts 2017 10 2 23 59), layout := .pattern (.list [(.i 0), (.i 1), (.i 0), (.i 2)]), selector := V.truthy, defaultLabel := V.none } (noHeap : Heap V)
    let (x3, x4) ← x1.addSchedule "sdl" (fun x => x.gt (1 : Rat))
    let x5 ← x4.call1 (.pair (some (ts 2017 10 1 14)) (some (ts 2017 10 2 23 59)))
    let x6 ← asIvl x5
    let x7 ← x4.callN (some (.pair (some (ts 2017 10 1 14)) (some (ts 2017 10 2 23 59)))) none none true "11" (some x3)
    let x8 ← asIvl x7
    let x9 ← x6.countPeriods x4 (⟨none, .D, by decide⟩ : Freq) .on none
    check 630 (decide (x9 = ((17 : Rat) / 12)))
    let x10 ← x8.countPeriods x4 (⟨none, .D, by decide⟩ : Freq) .on none
    check 631 (decide (x10 = ((3 : Rat) / 2)))
    let x11 ← x6.countPeriods x4 (⟨none, .D, by decide⟩ : Freq) .on (some x3)
    check 632 (decide (x11 = ((3 : Rat) / 2)))
    let x12 ← x8.countPeriods x4 (⟨none, .D, by decide⟩ : Freq) .on (some x4.defaultSchedule)
    check 633 (decide (x12 = ((17 : Rat) / 12)))
    pure ()) = true := by decide +kernel

/-- timeboard/tests/test_interval_methods.py 645: `TestIntervalSum.test_ivl_sum_numbers`. -/
example : passes (do
    let (x1, x2) ← Timeboard.new (L := V) { freq := (⟨none, .D, by decide⟩ : Freq), start := (ts 2017 10 1), stop := (ts 2017 10 10), layout := .pattern (.list [(.i 1), (.i 2)]), selector := (fun x => x.gt (1 : Rat)), defaultLabel := V.none } (noHeap : Heap V)
    let x3 ← Interval.new x1 (2, 9) none
    let x4 ← x3.sumLabels x1 V.num? .on none
    check 650 (decide (x4 = (8 : Rat)))
    let x5 ← x3.sumLabels x1 V.num? .off none
    check 651 (decide (x5 = (4 : Rat)))
    let x6 ← x3.sumLabels x1 V.num? .any none
    check 652 (decide (x6 = (12 : Rat)))
    let (x7, x8) ← Timeboard.new (L := V) { freq := (⟨none, .D, by decide⟩ : Freq), start := (ts 2017 10 1), stop := (ts 2017 10 10), layout := .pattern (.list [(.i (-2)), (.num ((3 : Rat) / 2))]), selector := (fun x => x.gt (0 : Rat)), defaultLabel := V.none } x2
    let x9 ← x7.callN none none none true "11" none
    let x10 ← asIvl x9
    let x11 ← x10.sumLabels x7 V.num? .on none
    check 657 (decide (x11 = ((15 : Rat) / 2)))
    let x12 ← x7.callN none none none true "11" none
    let x13 ← asIvl x12
    let x14 ← x13.sumLabels x7 V.num? .off none
    check 658 (decide (x14 = (-10 : Rat)))
    let x15 ← x7.callN none none none true "11" none
    let x16 ← asIvl x15
    let x17 ← x16.sumLabels x7 V.num? .any none
    check 659 (decide (x17 = ((-5 : Rat) / 2)))
    pure ()) = true := by decide +kernel

/-- timeboard/tests/test_interval_methods.py 670: `TestIntervalSum.test_ivl_sum_no_such_duty`. -/
example : passes (do
    let (x1, x2) ← Timeboard.new (L := V) { freq := (⟨none, .D, by decide⟩ : Freq), start := (ts 2017 10 1), stop := (ts 2017 10 10), layout := .pattern (.list [(.i 1), (.i 2)]), selector := V.truthy, defaultLabel := V.none } (noHeap : Heap V)
    let x3 ← Interval.new x1 (2, 9) none
    let x4 ← x3.sumLabels x1 V.num? .on none
    check 675 (decide (x4 = (12 : Rat)))
    let x5 ← x3.sumLabels x1 V.num? .off none
    check 676 (decide (x5 = (0 : Rat)))
    let x6 ← x3.sumLabels x1 V.num? .any none
    check 677 (decide (x6 = (12 : Rat)))
    pure ()) = true := by decide +kernel

/-- timeboard/tests/test_interval_methods.py 679: `TestIntervalSum.test_ivl_sum_other_schedule`. -/
example : passes (do
    let (x1, x2) ← Timeboard.new (L := V) { freq := (⟨none, .D, by decide⟩ : Freq), start := (ts 2017 10 1), stop := (ts 2017 10 10), layout := .pattern (.list [(.i 1), (.i 2)]), selector := V.truthy, defaultLabel := V.none } (noHeap : Heap V)
    let (x3, x4) ← x1.addSchedule "other" (fun x => x.gt (2 : Rat))
    let x5 ← Interval.new x4 (2, 9) none
    let x6 ← x5.sumLabels x4 V.num? .on (some x3)
    check 685 (decide (x6 = (0 : Rat)))
    let x7 ← x5.sumLabels x4 V.num? .off (some x3)
    check 686 (decide (x7 = (12 : Rat)))
    let x8 ← x5.sumLabels x4 V.num? .any (some x3)
    check 687 (decide (x8 = (12 : Rat)))
    pure ()) = true := by decide +kernel

/-- timeboard/tests/test_interval_methods.py 689: `TestIntervalSum.test_ivl_sum_exotic_fails`. -/
example : passes (do
    let (x1, x2) ← Timeboard.new (L := V) { freq := (⟨none, .D, by decide⟩ : Freq), start := (ts 2017 10 1), stop := (ts 2017 10 10), layout := .pattern (.list [(.obj 0)]), selector := V.truthy, defaultLabel := V.none } (noHeap : Heap V)
    raises 694 [.typeError] (do
      let x3 ← x1.callN none none none true "11" none
      let x4 ← asIvl x3
      let x5 ← x4.sumLabels x1 V.num? .on none
      pure ())
    raises 696 [.typeError] (do
      let x6 ← x1.callN none none none true "11" none
      let x7 ← asIvl x6
      let x8 ← x7.sumLabels x1 V.num? .any none
      pure ())
    let x9 ← x1.callN none none none true "11" none
    let x10 ← asIvl x9
    let x11 ← x10.sumLabels x1 V.num? .off none
    check 699 (decide (x11 = (0 : Rat)))
    pure ()) = true := by decide +kernel

/-- timeboard/tests/test_interval_methods.py 704: `TestIntervalTotalDuration.test_ivl_total_dur_numbers`. -/
example : passes (do
    let (x1, x2) ← Timeboard.new (L := V) { freq := (⟨none, .D, by decide⟩ : Freq), start := (ts 2017 10 1), stop := (ts 2017 10 10), layout := .pattern (.list [(.i 1), (.i 2)]), selector := (fun x => x.gt (1 : Rat)), defaultLabel := V.none } (noHeap : Heap V)
    let x3 ← Interval.new x1 (2, 9) none
    let x4 ← x3.totalDuration x1 .on none
    check 709 (decide (x4 = 4))
    let x5 ← x3.totalDuration x1 .off none
    check 710 (decide (x5 = 4))
    let x6 ← x3.totalDuration x1 .any none
    check 711 (decide (x6 = 8))
    let (x7, x8) ← Timeboard.new (L := V) { freq := (⟨none, .D, by decide⟩ : Freq), start := (ts 2017 10 1), stop := (ts 2017 10 10), layout := .pattern (.list [(.i (-2)), (.num ((3 : Rat) / 2))]), selector := (fun x => x.gt (0 : Rat)), defaultLabel := V.none } x2
    let x9 ← x7.callN none none none true "11" none
    let x10 ← asIvl x9
    let x11 ← x10.totalDuration x7 .on none
    check 716 (decide (x11 = 5))
    let x12 ← x7.callN none none none true "11" none
    let x13 ← asIvl x12
    let x14 ← x13.totalDuration x7 .off none
    check 717 (decide (x14 = 5))
    let x15 ← x7.callN none none none true "11" none
    let x16 ← asIvl x15
    let x17 ← x16.totalDuration x7 .any none
    check 718 (decide (x17 = 10))
    pure ()) = true := by decide +kernel

/-- timeboard/tests/test_interval_methods.py 720: `TestIntervalTotalDuration.test_ivl_total_dur_no_such_duty`. -/
example : passes (do
    let (x1, x2) ← Timeboard.new (L := V) { freq := (⟨none, .D, by decide⟩ : Freq), start := (ts 2017 10 1), stop := (ts 2017 10 10), layout := .pattern (.list [(.i 1), (.i 2)]), selector := V.truthy, defaultLabel := V.none } (noHeap : Heap V)
    let x3 ← Interval.new x1 (2, 9) none
    let x4 ← x3.totalDuration x1 .on none
    check 725 (decide (x4 = 8))
    let x5 ← x3.totalDuration x1 .off none
    check 726 (decide (x5 = 0))
    let x6 ← x3.totalDuration x1 .any none
    check 727 (decide (x6 = 8))
    pure ()) = true := by decide +kernel

/-- timeboard/tests/test_interval_methods.py 729: `TestIntervalTotalDuration.test_ivl_total_dur_other_schedule`. -/
example : passes (do
    let (x1, x2) ← Timeboard.new (L := V) { freq := (⟨none, .D, by decide⟩ : Freq), start := (ts 2017 10 1), stop := (ts 2017 10 10), layout := .pattern (.list [(.i 1), (.i 2)]), selector := V.truthy, defaultLabel := V.none } (noHeap : Heap V)
    let (x3, x4) ← x1.addSchedule "other" (fun x => x.gt (2 : Rat))
    let x5 ← Interval.new x4 (2, 9) none
    let x6 ← x5.totalDuration x4 .on (some x3)
    check 735 (decide (x6 = 0))
    let x7 ← x5.totalDuration x4 .off (some x3)
    check 736 (decide (x7 = 8))
    let x8 ← x5.totalDuration x4 .any (some x3)
    check 737 (decide (x8 = 8))
    pure ()) = true := by decide +kernel

/-- timeboard/tests/test_interval_methods.py 742: `TestIntervalWorktime.test_ivl_worktime_default`. -/
example : passes (do
    let (x1, x2) ← Timeboard.new (L := V) { freq := (⟨none, .D, by decide⟩ : Freq), start := (ts 2017 10 1), stop := (ts 2017 10 10), layout := .pattern (.list [(.i 1), (.i 2)]), selector := (fun x => x.gt (1 : Rat)), defaultLabel := V.none } (noHeap : Heap V)
    let x3 ← Interval.new x1 (2, 9) none
    let x4 ← x3.worktime x1 V.num? .on none
    check 747 (decide (x4 = (4 : Rat)))
    let x5 ← x3.worktime x1 V.num? .off none
    check 748 (decide (x5 = (4 : Rat)))
    let x6 ← x3.worktime x1 V.num? .any none
    check 749 (decide (x6 = (8 : Rat)))
    let x7 ← x1.callN none none none true "11" none
    let x8 ← asIvl x7
    let x9 ← x8.worktime x1 V.num? .on none
    check 751 (decide (x9 = (5 : Rat)))
    let x10 ← x1.callN none none none true "11" none
    let x11 ← asIvl x10
    let x12 ← x11.worktime x1 V.num? .off none
    check 752 (decide (x12 = (5 : Rat)))
    let x13 ← x1.callN none none none true "11" none
    let x14 ← asIvl x13
    let x15 ← x14.worktime x1 V.num? .any none
    check 753 (decide (x15 = (10 : Rat)))
    pure ()) = true := by decide +kernel

/-- timeboard/tests/test_interval_methods.py 756: `TestIntervalWorktime.test_ivl_worktime_in_labels`. -/
example : passes (do
    let (x1, x2) ← Timeboard.new (L := V) { freq := (⟨none, .D, by decide⟩ : Freq), start := (ts 2017 10 1), stop := (ts 2017 10 10), layout := .pattern (.list [(.i 1), (.i 2)]), selector := (fun x => x.gt (1 : Rat)), defaultLabel := V.none, worktimeSource := "labels" } (noHeap : Heap V)
    let x3 ← Interval.new x1 (2, 9) none
    let x4 ← x3.worktime x1 V.num? .on none
    check 762 (decide (x4 = (8 : Rat)))
    let x5 ← x3.worktime x1 V.num? .off none
    check 763 (decide (x5 = (4 : Rat)))
    let x6 ← x3.worktime x1 V.num? .any none
    check 764 (decide (x6 = (12 : Rat)))
    pure ()) = true := by decide +kernel

/-- timeboard/tests/test_interval_methods.py 766: `TestIntervalWorktime.test_ivl_worktime_in_labels_other_schedule`. -/
example : passes (do
    let (x1, x2) ← Timeboard.new (L := V) { freq := (⟨none, .D, by decide⟩ : Freq), start := (ts 2017 10 1), stop := (ts 2017 10 10), layout := .pattern (.list [(.i 1), (.i 2)]), selector := V.truthy, defaultLabel := V.none, worktimeSource := "labels" } (noHeap : Heap V)
    let (x3, x4) ← x1.addSchedule "other" (fun x => x.gt (2 : Rat))
    let x5 ← Interval.new x4 (2, 9) none
    let x6 ← x5.worktime x4 V.num? .on (some x3)
    check 773 (decide (x6 = (0 : Rat)))
    let x7 ← x5.worktime x4 V.num? .off (some x3)
    check 774 (decide (x7 = (12 : Rat)))
    let x8 ← x5.worktime x4 V.num? .any (some x3)
    check 775 (decide (x8 = (12 : Rat)))
    pure ()) = true := by decide +kernel

/-- timeboard/tests/test_interval_methods.py 777: `TestIntervalWorktime.test_ivl_worktime_in_labels_strings`. -/
example : passes (do
    let (x1, x2) ← Timeboard.new (L := V) { freq := (⟨none, .D, by decide⟩ : Freq), start := (ts 2017 10 1), stop := (ts 2017 10 10), layout := .pattern (.list [(.str "a"), (.str "b")]), selector := (fun x => decide (x = (.str "b"))), defaultLabel := V.none, worktimeSource := "labels" } (noHeap : Heap V)
    let x3 ← Interval.new x1 (2, 9) none
    raises 783 [.typeError] (do
      let x4 ← x3.worktime x1 V.num? .on none
      pure ())
    raises 785 [.typeError] (do
      let x5 ← x3.worktime x1 V.num? .off none
      pure ())
    raises 787 [.typeError] (do
      let x6 ← x3.worktime x1 V.num? .any none
      pure ())
    pure ()) = true := by decide +kernel

/-- timeboard/tests/test_interval_methods.py 790: `TestIntervalWorktime.test_ivl_worktime_exotic_fails`. -/
example : passes (do
    let (x1, x2) ← Timeboard.new (L := V) { freq := (⟨none, .D, by decide⟩ : Freq), start := (ts 2017 10 1), stop := (ts 2017 10 10), layout := .pattern (.list [(.obj 0)]), selector := V.truthy, defaultLabel := V.none, worktimeSource := "labels" } (noHeap : Heap V)
    raises 796 [.typeError] (do
      let x3 ← x1.callN none none none true "11" none
      let x4 ← asIvl x3
      let x5 ← x4.worktime x1 V.num? .on none
      pure ())
    raises 798 [.typeError] (do
      let x6 ← x1.callN none none none true "11" none
      let x7 ← asIvl x6
      let x8 ← x7.worktime x1 V.num? .any none
      pure ())
    let x9 ← x1.callN none none none true "11" none
    let x10 ← asIvl x9
    let x11 ← x10.worktime x1 V.num? .off none
    check 801 (decide (x11 = (0 : Rat)))
    pure ()) = true := by decide +kernel

/-- timeboard/tests/test_interval_methods.py 806: `TestIntervalOverlap.test_ivl_overlap_partial`. -/
example : passes (do
    let (x1, x2) ← Timeboard.new (L := V) { freq := (⟨none, .D, by decide⟩ : Freq), start := (ts 2016 12 31), stop := (ts 2017 1 12), layout := .pattern (.list [(.i 0), (.i 1), (.i 0), (.i 0), (.i 2), (.i 0)]), selector := V.truthy, defaultLabel := V.none } (noHeap : Heap V)
    let x3 ← Interval.new x1 (2, 8) none
    let x4 ← Interval.new x1 (6, 12) none
    let x5 ← x3.overlap x1 x4 none
    check 811 (decide ((x5.lo, x5.hi) = (6, 8)))
    check 812 (decide (x5.len = 3))
    let x6 ← Interval.new x1 (1, 3) none
    let x7 ← x3.overlap x1 x6 none
    check 816 (decide ((x7.lo, x7.hi) = (2, 3)))
    check 817 (decide (x7.len = 2))
    pure ()) = true := by decide +kernel

/-- timeboard/tests/test_interval_methods.py 819: `TestIntervalOverlap.test_ivl_overlap_total`. -/
example : passes (do
    let (x1, x2) ← Timeboard.new (L := V) { freq := (⟨none, .D, by decide⟩ : Freq), start := (ts 2016 12 31), stop := (ts 2017 1 12), layout := .pattern (.list [(.i 0), (.i 1), (.i 0), (.i 0), (.i 2), (.i 0)]), selector := V.truthy, defaultLabel := V.none } (noHeap : Heap V)
    let x3 ← Interval.new x1 (2, 8) none
    let x4 ← Interval.new x1 (0, 12) none
    let x5 ← x3.overlap x1 x4 none
    check 824 (decide ((x5.lo, x5.hi) = (2, 8)))
    check 825 (decide (x5.len = 7))
    pure ()) = true := by decide +kernel

/-- timeboard/tests/test_interval_methods.py 827: `TestIntervalOverlap.test_ivl_overlap_within`. -/
example : passes (do
    let (x1, x2) ← Timeboard.new (L := V) { freq := (⟨none, .D, by decide⟩ : Freq), start := (ts 2016 12 31), stop := (ts 2017 1 12), layout := .pattern (.list [(.i 0), (.i 1), (.i 0), (.i 0), (.i 2), (.i 0)]), selector := V.truthy, defaultLabel := V.none } (noHeap : Heap V)
    let x3 ← Interval.new x1 (2, 8) none
    let x4 ← Interval.new x1 (3, 7) none
    let x5 ← x3.overlap x1 x4 none
    check 832 (decide ((x5.lo, x5.hi) = (3, 7)))
    check 833 (decide (x5.len = 5))
    pure ()) = true := by decide +kernel

/-- timeboard/tests/test_interval_methods.py 835: `TestIntervalOverlap.test_ivl_overlap_with_self`. -/
example : passes (do
    let (x1, x2) ← Timeboard.new (L := V) { freq := (⟨none, .D, by decide⟩ : Freq), start := (ts 2016 12 31), stop := (ts 2017 1 12), layout := .pattern (.list [(.i 0), (.i 1), (.i 0), (.i 0), (.i 2), (.i 0)]), selector := V.truthy, defaultLabel := V.none } (noHeap : Heap V)
    let x3 ← Interval.new x1 (2, 8) none
    let x4 ← x3.overlap x1 x3 none
    check 839 (decide ((x4.lo, x4.hi) = (2, 8)))
    check 840 (decide (x4.len = 7))
    pure ()) = true := by decide +kernel

/-- timeboard/tests/test_interval_methods.py 842: `TestIntervalOverlap.test_ivl_overlap_one`. -/
example : passes (do
    let (x1, x2) ← Timeboard.new (L := V) { freq := (⟨none, .D, by decide⟩ : Freq), start := (ts 2016 12 31), stop := (ts 2017 1 12), layout := .pattern (.list [(.i 0), (.i 1), (.i 0), (.i 0), (.i 2), (.i 0)]), selector := V.truthy, defaultLabel := V.none } (noHeap : Heap V)
    let x3 ← Interval.new x1 (2, 8) none
    let x4 ← Interval.new x1 (1, 2) none
    let x5 ← x3.overlap x1 x4 none
    check 847 (decide ((x5.lo, x5.hi) = (2, 2)))
    check 848 (decide (x5.len = 1))
    let x6 ← Interval.new x1 (2, 2) none
    let x7 ← x3.overlap x1 x6 none
    check 852 (decide ((x7.lo, x7.hi) = (2, 2)))
    check 853 (decide (x7.len = 1))
    pure ()) = true := by decide +kernel

/-- timeboard/tests/test_interval_methods.py 855: `TestIntervalOverlap.test_ivl_overlap_void`. -/
example : passes (do
    let (x1, x2) ← Timeboard.new (L := V) { freq := (⟨none, .D, by decide⟩ : Freq), start := (ts 2016 12 31), stop := (ts 2017 1 12), layout := .pattern (.list [(.i 0), (.i 1), (.i 0), (.i 0), (.i 2), (.i 0)]), selector := V.truthy, defaultLabel := V.none } (noHeap : Heap V)
    let x3 ← Interval.new x1 (2, 8) none
    let x4 ← Interval.new x1 (9, 10) none
    let x5 ← x3.overlap x1 x4 none
    check 860 (decide ((x5.lo, x5.hi) = (9, 8)))
    check 861 (decide (x5.len = 0))
    check 862 (x5.isVoid)
    let x6 ← Interval.new x1 (1, 1) none
    let x7 ← x3.overlap x1 x6 none
    check 866 (decide ((x7.lo, x7.hi) = (2, 1)))
    check 867 (decide (x7.len = 0))
    check 868 (x7.isVoid)
    let x8 ← x3.overlap x1 x7 none
    check 871 (decide ((x8.lo, x8.hi) = (2, 1)))
    check 872 (decide (x8.len = 0))
    check 873 (x8.isVoid)
    pure ()) = true := by decide +kernel

/-- timeboard/tests/test_interval_methods.py 875: `TestIntervalOverlap.test_ivl_overlap_change_schedule`. -/
example : passes (do
    let (x1, x2) ← Timeboard.new (L := V) { freq := (⟨none, .D, by decide⟩ : Freq), start := (ts 2016 12 31), stop := (ts 2017 1 12), layout := .pattern (.list [(.i 0), (.i 1), (.i 0), (.i 0), (.i 2), (.i 0)]), selector := V.truthy, defaultLabel := V.none } (noHeap : Heap V)
    let (x3, x4) ← x1.addSchedule "my_schedule" (fun _ => true)
    let (x5, x6) ← x4.addSchedule "my_schedule_2" (fun _ => true)
    let x7 ← Interval.new x6 (2, 8) (some x3)
    let x8 ← Interval.new x6 (6, 12) none
    let x9 ← x7.overlap x6 x8 none
    check 883 (decide ((x9.lo, x9.hi) = (6, 8)))
    check 884 (decide (x9.schedule.name = "my_schedule"))
    let x10 ← Interval.new x6 (2, 8) none
    let x11 ← Interval.new x6 (6, 12) (some x3)
    let x12 ← x10.overlap x6 x11 none
    check 889 (decide ((x12.lo, x12.hi) = (6, 8)))
    check 890 (decide (x12.schedule.name = x6.defaultSchedule.name))
    let x13 ← Interval.new x6 (2, 8) (some x3)
    let x14 ← Interval.new x6 (6, 12) none
    let x15 ← x13.overlap x6 x14 (some x5)
    check 895 (decide ((x15.lo, x15.hi) = (6, 8)))
    check 896 (decide (x15.schedule.name = "my_schedule_2"))
    let x16 ← Interval.new x6 (2, 8) (some x3)
    let x17 ← Interval.new x6 (10, 12) none
    let x18 ← x16.overlap x6 x17 none
    check 901 (x18.isVoid)
    check 902 (decide (x18.schedule.name = "my_schedule"))
    pure ()) = true := by decide +kernel

/-- timeboard/tests/test_interval_methods.py 904: `TestIntervalOverlap.test_ivl_overlap_mul`. -/
example : passes (do
    let (x1, x2) ← Timeboard.new (L := V) { freq := (⟨none, .D, by decide⟩ : Freq), start := (ts 2016 12 31), stop := (ts 2017 1 12), layout := .pattern (.list [(.i 0), (.i 1), (.i 0), (.i 0), (.i 2), (.i 0)]), selector := V.truthy, defaultLabel := V.none } (noHeap : Heap V)
    let x3 ← Interval.new x1 (2, 8) none
    let x4 ← Interval.new x1 (6, 12) none
    let x5 ← x3.overlap x1 x4
    check 909 (decide ((x5.lo, x5.hi) = (6, 8)))
    check 910 (decide (x5.len = 3))
    pure ()) = true := by decide +kernel

/-- timeboard/tests/test_interval_methods.py 923: `TestVoidIntervalMethods.test_void_ivl_nth`. Left out (arguments which the model cannot express): lines 927, 927. -/
example : passes (do
    let (x1, x2) ← Timeboard.new (L := V) { freq := (⟨none, .D, by decide⟩ : Freq), start := (ts 2016 12 31), stop := (ts 2017 1 12), layout := .pattern (.list [(.i 0), (.i 1), (.i 0), (.i 0), (.i 2), (.i 0)]), selector := V.truthy, defaultLabel := V.none } (noHeap : Heap V)
    let x3 ← Interval.newVoid x1 (8, 2) none
    raises 927 [.outOfBounds] (do
      let x4 ← x3.first x1 .on none
      pure ())
    pure ()) = true := by decide +kernel

/-- timeboard/tests/test_interval_methods.py 930: `TestVoidIntervalMethods.test_void_ivl_overlap`. -/
example : passes (do
    let (x1, x2) ← Timeboard.new (L := V) { freq := (⟨none, .D, by decide⟩ : Freq), start := (ts 2016 12 31), stop := (ts 2017 1 12), layout := .pattern (.list [(.i 0), (.i 1), (.i 0), (.i 0), (.i 2), (.i 0)]), selector := V.truthy, defaultLabel := V.none } (noHeap : Heap V)
    let (x3, x4) ← x1.addSchedule "my_schedule" (fun _ => true)
    let x5 ← Interval.newVoid x4 (8, 2) none
    let x6 ← Interval.new x4 (2, 8) none
    let x7 ← x5.overlap x4 x6 (some x3)
    check 936 (x7.isVoid)
    check 937 (decide ((x7.lo, x7.hi) = (8, 2)))
    check 938 (decide (x7.len = 0))
    check 939 (decide (x7.schedule.name = "my_schedule"))
    let x8 ← x5.overlap x4 x6
    check 942 (decide ((x8.lo, x8.hi) = (8, 2)))
    check 943 (decide (x8.len = 0))
    check 944 (decide (x8.schedule.name = x4.defaultSchedule.name))
    let x9 ← x5.overlap x4 x5 none
    check 947 (decide ((x9.lo, x9.hi) = (8, 2)))
    check 948 (decide (x9.len = 0))
    check 949 (decide (x9.schedule.name = x4.defaultSchedule.name))
    let x10 ← Interval.newVoid x4 (1, 0) (some x3)
    let x11 ← x10.overlap x4 x5 none
    check 953 (x11.isVoid)
    check 954 (decide ((x11.lo, x11.hi) = (1, 0)))
    check 955 (decide (x11.len = 0))
    check 956 (decide (x11.schedule.name = "my_schedule"))
    pure ()) = true := by decide +kernel

/-- timeboard/tests/test_interval_methods.py 958: `TestVoidIntervalMethods.test_void_ivl_whatportion`. -/
example : passes (do
    let (x1, x2) ← Timeboard.new (L := V) { freq := (⟨none, .D, by decide⟩ : Freq), start := (ts 2016 12 31), stop := (ts 2017 1 12), layout := .pattern (.list [(.i 0), (.i 1), (.i 0), (.i 0), (.i 2), (.i 0)]), selector := V.truthy, defaultLabel := V.none } (noHeap : Heap V)
    let x3 ← Interval.newVoid x1 (8, 2) none
    let x4 ← Interval.new x1 (2, 8) none
    let x5 ← x3.whatPortionOf x1 x4 .on none
    check 962 (decide (x5 = (0 : Rat)))
    let x6 ← x3.whatPortionOf x1 x4
    check 963 (decide (x6 = (0 : Rat)))
    let x7 ← x3.whatPortionOf x1 x3 .on none
    check 964 (decide (x7 = (0 : Rat)))
    pure ()) = true := by decide +kernel

end TB.Conf
