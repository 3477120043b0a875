import Verif.Conformance.Support
/-!
# `timeboard/tests/test_workshift_compound.py`

Generated by `tools/conformance.py`.  One example per unit test: the statements of the test, performed by the
model, succeed.  These are checks of the model on single inputs, not proofs of properties.
-/
set_option linter.unusedVariables false
namespace TB.Conf

/-- timeboard/tests/test_workshift_compound.py 22: `TestWorkshiftCompoundConstructor.test_locate`. -/
example : passes (do
    let (x1, x2) ← Timeboard.new (L := V) { freq := (⟨none, .D, by decide⟩ : Freq), start := (ts 2016 12 31), stop := (ts 2017 1 12), layout := .organizer (.marker { each := (⟨none, .W none, by decide⟩ : Freq), ats := [] }) [.label (.i 100), .pattern (.list [(.i 0), (.i 0), (.i 1), (.i 1)])], selector := V.truthy, defaultLabel := V.none } (noHeap : Heap V)
    let x3 ← x1.locate (ts 2016 12 31)
    check 25 (decide (x3 = { pos := some 0, side := 0 }))
    let x4 ← x1.locate (ts 2017 1 1)
    check 27 (decide (x4 = { pos := some 0, side := 0 }))
    let x5 ← x1.locate (ts 2017 1 4)
    check 29 (decide (x5 = { pos := some 3, side := 0 }))
    let x6 ← x1.locate (ts 2017 1 11)
    check 31 (decide (x6 = { pos := some 8, side := 0 }))
    let x7 ← x1.locate (ts 2017 1 12)
    check 33 (decide (x7 = { pos := some 8, side := 0 }))
    pure ()) = true := by decide +kernel

/-- timeboard/tests/test_workshift_compound.py 35: `TestWorkshiftCompoundConstructor.test_locate_outside`. -/
example : passes (do
    let (x1, x2) ← Timeboard.new (L := V) { freq := (⟨none, .D, by decide⟩ : Freq), start := (ts 2016 12 31), stop := (ts 2017 1 12), layout := .organizer (.marker { each := (⟨none, .W none, by decide⟩ : Freq), ats := [] }) [.label (.i 100), .pattern (.list [(.i 0), (.i 0), (.i 1), (.i 1)])], selector := V.truthy, defaultLabel := V.none } (noHeap : Heap V)
    let x3 ← x1.locate (ts 2017 1 13)
    check 38 (decide (x3 = { pos := none, side := 1 }))
    let x4 ← x1.locate (ts 2016 12 30)
    check 40 (decide (x4 = { pos := none, side := (-1) }))
    pure ()) = true := by decide +kernel

/-- timeboard/tests/test_workshift_compound.py 42: `TestWorkshiftCompoundConstructor.test_workshift_ordinary_constructor`. -/
example : passes (do
    let (x1, x2) ← Timeboard.new (L := V) { freq := (⟨none, .D, by decide⟩ : Freq), start := (ts 2016 12 31), stop := (ts 2017 1 12), layout := .organizer (.marker { each := (⟨none, .W none, by decide⟩ : Freq), ats := [] }) [.label (.i 100), .pattern (.list [(.i 0), (.i 0), (.i 1), (.i 1)])], selector := V.truthy, defaultLabel := V.none } (noHeap : Heap V)
    let x3 ← x1.getWorkshift (ts 2017 1 4) none
    check 45 (decide (x3.loc = 3))
    let x4 ← x3.startTime x1
    check 46 (decide (x4 = (ts 2017 1 4)))
    let x5 ← x3.endTime x1
    check 47 (decide (x5 > (ts 2017 1 4 23 59 59)))
    let x6 ← x3.endTime x1
    check 48 (decide (x6 < (ts 2017 1 5)))
    check 49 (decide (x3.label = (.i 1)))
    let x7 ← x3.duration x1
    check 51 (decide (x7 = 1))
    let x8 ← x1.call1 (.point (ts 2017 1 4))
    let x9 ← asWs x8
    check 54 (decide (x9.loc = x3.loc))
    pure ()) = true := by decide +kernel

/-- timeboard/tests/test_workshift_compound.py 56: `TestWorkshiftCompoundConstructor.test_workshift_compound_constructor`. -/
example : passes (do
    let (x1, x2) ← Timeboard.new (L := V) { freq := (⟨none, .D, by decide⟩ : Freq), start := (ts 2016 12 31), stop := (ts 2017 1 12), layout := .organizer (.marker { each := (⟨none, .W none, by decide⟩ : Freq), ats := [] }) [.label (.i 100), .pattern (.list [(.i 0), (.i 0), (.i 1), (.i 1)])], selector := V.truthy, defaultLabel := V.none } (noHeap : Heap V)
    let x3 ← x1.getWorkshift (ts 2017 1 11) none
    check 59 (decide (x3.loc = 8))
    let x4 ← x3.startTime x1
    check 60 (decide (x4 = (ts 2017 1 9)))
    let x5 ← x3.endTime x1
    check 61 (decide (x5 > (ts 2017 1 12 23 59 59)))
    let x6 ← x3.endTime x1
    check 62 (decide (x6 < (ts 2017 1 13)))
    check 63 (decide (x3.label = (.i 100)))
    let x7 ← x3.duration x1
    check 65 (decide (x7 = 4))
    let x8 ← x1.call1 (.point (ts 2017 1 11))
    let x9 ← asWs x8
    check 68 (decide (x9.loc = x3.loc))
    check 69 (decide (x9.label = x3.label))
    pure ()) = true := by decide +kernel

/-- timeboard/tests/test_workshift_compound.py 71: `TestWorkshiftCompoundConstructor.test_workshift_constructor_compound_at_start`. -/
example : passes (do
    let (x1, x2) ← Timeboard.new (L := V) { freq := (⟨none, .D, by decide⟩ : Freq), start := (ts 2016 12 31), stop := (ts 2017 1 12), layout := .organizer (.marker { each := (⟨none, .W none, by decide⟩ : Freq), ats := [] }) [.label (.i 100), .pattern (.list [(.i 0), (.i 0), (.i 1), (.i 1)])], selector := V.truthy, defaultLabel := V.none } (noHeap : Heap V)
    let x3 ← x1.getWorkshift (ts 2016 12 31) none
    check 74 (decide (x3.loc = 0))
    let x4 ← x3.startTime x1
    check 75 (decide (x4 = (ts 2016 12 31)))
    let x5 ← x3.endTime x1
    check 76 (decide (x5 > (ts 2017 1 1 23 59 59)))
    let x6 ← x3.endTime x1
    check 77 (decide (x6 < (ts 2017 1 2)))
    check 78 (decide (x3.label = (.i 100)))
    let x7 ← x3.duration x1
    check 80 (decide (x7 = 2))
    let x8 ← x1.call1 (.point (ts 2016 12 31))
    let x9 ← asWs x8
    check 83 (decide (x9.loc = x3.loc))
    check 84 (decide (x9.label = x3.label))
    pure ()) = true := by decide +kernel

/-- timeboard/tests/test_workshift_compound.py 86: `TestWorkshiftCompoundConstructor.test_workshift_constructor_compound_at_end`. -/
example : passes (do
    let (x1, x2) ← Timeboard.new (L := V) { freq := (⟨none, .D, by decide⟩ : Freq), start := (ts 2016 12 31), stop := (ts 2017 1 12), layout := .organizer (.marker { each := (⟨none, .W none, by decide⟩ : Freq), ats := [] }) [.label (.i 100), .pattern (.list [(.i 0), (.i 0), (.i 1), (.i 1)])], selector := V.truthy, defaultLabel := V.none } (noHeap : Heap V)
    let x3 ← x1.getWorkshift (ts 2017 1 12) none
    check 89 (decide (x3.loc = 8))
    let x4 ← x3.startTime x1
    check 90 (decide (x4 = (ts 2017 1 9)))
    let x5 ← x3.endTime x1
    check 91 (decide (x5 > (ts 2017 1 12 23 59 59)))
    let x6 ← x3.endTime x1
    check 92 (decide (x6 < (ts 2017 1 13)))
    check 93 (decide (x3.label = (.i 100)))
    let x7 ← x3.duration x1
    check 95 (decide (x7 = 4))
    let x8 ← x1.call1 (.point (ts 2017 1 12))
    let x9 ← asWs x8
    check 98 (decide (x9.loc = x3.loc))
    check 99 (decide (x9.label = x3.label))
    pure ()) = true := by decide +kernel

/-- timeboard/tests/test_workshift_compound.py 104: `TestRollForwardCompound.test_rollforward_trivial_0_to_self`. -/
example : passes (do
    let (x1, x2) ← Timeboard.new (L := V) { freq := (⟨none, .D, by decide⟩ : Freq), start := (ts 2016 12 31), stop := (ts 2017 1 12), layout := .organizer (.marker { each := (⟨none, .W none, by decide⟩ : Freq), ats := [] }) [.label (.i 100), .pattern (.list [(.i 0), (.i 0), (.i 1), (.i 1)])], selector := V.truthy, defaultLabel := V.none } (noHeap : Heap V)
    let x3 ← x1.call1 (.point (ts 2016 12 31))
    let x4 ← asWs x3
    let x5 ← x4.rollforward x1 0 .on none
    check 108 (decide (x5.loc = 0))
    let x6 ← x1.call1 (.point (ts 2017 1 4))
    let x7 ← asWs x6
    let x8 ← x7.rollforward x1 0 .on none
    check 111 (decide (x8.loc = 3))
    let x9 ← x1.call1 (.point (ts 2017 1 11))
    let x10 ← asWs x9
    let x11 ← x10.rollforward x1 0 .on none
    check 114 (decide (x11.loc = 8))
    let x12 ← x1.call1 (.point (ts 2017 1 12))
    let x13 ← asWs x12
    let x14 ← x13.rollforward x1 0 .on none
    check 117 (decide (x14.loc = 8))
    pure ()) = true := by decide +kernel

/-- timeboard/tests/test_workshift_compound.py 119: `TestRollForwardCompound.test_rollforward_trivial_0_to_next`. -/
example : passes (do
    let (x1, x2) ← Timeboard.new (L := V) { freq := (⟨none, .D, by decide⟩ : Freq), start := (ts 2016 12 31), stop := (ts 2017 1 12), layout := .organizer (.marker { each := (⟨none, .W none, by decide⟩ : Freq), ats := [] }) [.label (.i 0), .pattern (.list [(.i 0), (.i 0), (.i 1), (.i 1)])], selector := V.truthy, defaultLabel := V.none } (noHeap : Heap V)
    let x3 ← x1.call1 (.point (ts 2016 12 31))
    let x4 ← asWs x3
    let x5 ← x4.rollforward x1 0 .on none
    check 126 (decide (x5.loc = 3))
    let x6 ← x1.call1 (.point (ts 2017 1 3))
    let x7 ← asWs x6
    let x8 ← x7.rollforward x1 0 .on none
    check 129 (decide (x8.loc = 3))
    pure ()) = true := by decide +kernel

/-- timeboard/tests/test_workshift_compound.py 131: `TestRollForwardCompound.test_rollforward_on_0`. -/
example : passes (do
    let (x1, x2) ← Timeboard.new (L := V) { freq := (⟨none, .D, by decide⟩ : Freq), start := (ts 2016 12 31), stop := (ts 2017 1 12), layout := .organizer (.marker { each := (⟨none, .W none, by decide⟩ : Freq), ats := [] }) [.label (.i 100), .pattern (.list [(.i 0), (.i 0), (.i 1), (.i 1)])], selector := V.truthy, defaultLabel := V.none } (noHeap : Heap V)
    let x3 ← x1.call1 (.point (ts 2016 12 31))
    let x4 ← asWs x3
    let x5 ← x4.rollforward x1 0 .on none
    let x6 ← x4.rollforward x1 0 .off none
    let x7 ← x4.rollforward x1 0 .same none
    let x8 ← x4.rollforward x1 0 .alt none
    let x9 ← x4.rollforward x1 0 .any none
    check 137 ((decide (x5.loc = 0)) && (decide (x6.loc = 1)) && (decide (x7.loc = 0)) && (decide (x8.loc = 1)) && (decide (x9.loc = 0)))
    let x10 ← x4.rollforward x1 0 .off none
    let x11 ← x10.startTime x1
    check 138 (decide (x11 = (ts 2017 1 2)))
    let x12 ← x1.call1 (.point (ts 2017 1 1))
    let x13 ← asWs x12
    let x14 ← x13.rollforward x1 0 .off none
    let x15 ← x14.startTime x1
    check 141 (decide (x15 = (ts 2017 1 2)))
    pure ()) = true := by decide +kernel

/-- timeboard/tests/test_workshift_compound.py 144: `TestRollForwardCompound.test_rollforward_off_0`. -/
example : passes (do
    let (x1, x2) ← Timeboard.new (L := V) { freq := (⟨none, .D, by decide⟩ : Freq), start := (ts 2016 12 31), stop := (ts 2017 1 12), layout := .organizer (.marker { each := (⟨none, .W none, by decide⟩ : Freq), ats := [] }) [.label (.i 0), .pattern (.list [(.i 0), (.i 0), (.i 1), (.i 1)])], selector := V.truthy, defaultLabel := V.none } (noHeap : Heap V)
    let x3 ← x1.call1 (.point (ts 2016 12 31))
    let x4 ← asWs x3
    let x5 ← x4.rollforward x1 0 .on none
    let x6 ← x4.rollforward x1 0 .off none
    let x7 ← x4.rollforward x1 0 .same none
    let x8 ← x4.rollforward x1 0 .alt none
    let x9 ← x4.rollforward x1 0 .any none
    check 153 ((decide (x5.loc = 3)) && (decide (x6.loc = 0)) && (decide (x7.loc = 0)) && (decide (x8.loc = 3)) && (decide (x9.loc = 0)))
    pure ()) = true := by decide +kernel

/-- timeboard/tests/test_workshift_compound.py 155: `TestRollForwardCompound.test_rollforward_on_n`. -/
example : passes (do
    let (x1, x2) ← Timeboard.new (L := V) { freq := (⟨none, .D, by decide⟩ : Freq), start := (ts 2016 12 31), stop := (ts 2017 1 12), layout := .organizer (.marker { each := (⟨none, .W none, by decide⟩ : Freq), ats := [] }) [.label (.i 100), .pattern (.list [(.i 0), (.i 0), (.i 1), (.i 1)])], selector := V.truthy, defaultLabel := V.none } (noHeap : Heap V)
    let x3 ← x1.call1 (.point (ts 2016 12 31))
    let x4 ← asWs x3
    let x5 ← x4.rollforward x1 2 .on none
    let x6 ← x4.rollforward x1 2 .off none
    let x7 ← x4.rollforward x1 2 .same none
    let x8 ← x4.rollforward x1 2 .alt none
    let x9 ← x4.rollforward x1 2 .any none
    check 161 ((decide (x5.loc = 4)) && (decide (x6.loc = 5)) && (decide (x7.loc = 4)) && (decide (x8.loc = 5)) && (decide (x9.loc = 2)))
    pure ()) = true := by decide +kernel

/-- timeboard/tests/test_workshift_compound.py 163: `TestRollForwardCompound.test_rollforward_off_n`. -/
example : passes (do
    let (x1, x2) ← Timeboard.new (L := V) { freq := (⟨none, .D, by decide⟩ : Freq), start := (ts 2016 12 31), stop := (ts 2017 1 12), layout := .organizer (.marker { each := (⟨none, .W none, by decide⟩ : Freq), ats := [] }) [.label (.i 0), .pattern (.list [(.i 0), (.i 0), (.i 1), (.i 1)])], selector := V.truthy, defaultLabel := V.none } (noHeap : Heap V)
    let x3 ← x1.call1 (.point (ts 2016 12 31))
    let x4 ← asWs x3
    let x5 ← x4.rollforward x1 2 .on none
    let x6 ← x4.rollforward x1 2 .off none
    let x7 ← x4.rollforward x1 2 .same none
    let x8 ← x4.rollforward x1 2 .alt none
    let x9 ← x4.rollforward x1 2 .any none
    check 172 ((decide (x5.loc = 7)) && (decide (x6.loc = 2)) && (decide (x7.loc = 2)) && (decide (x8.loc = 7)) && (decide (x9.loc = 2)))
    pure ()) = true := by decide +kernel

/-- timeboard/tests/test_workshift_compound.py 174: `TestRollForwardCompound.test_rollforward_on_n_negative_from_last_element`. -/
example : passes (do
    let (x1, x2) ← Timeboard.new (L := V) { freq := (⟨none, .D, by decide⟩ : Freq), start := (ts 2016 12 31), stop := (ts 2017 1 12), layout := .organizer (.marker { each := (⟨none, .W none, by decide⟩ : Freq), ats := [] }) [.label (.i 100), .pattern (.list [(.i 0), (.i 0), (.i 1), (.i 1)])], selector := V.truthy, defaultLabel := V.none } (noHeap : Heap V)
    let x3 ← x1.call1 (.point (ts 2017 1 11))
    let x4 ← asWs x3
    let x5 ← x4.rollforward x1 (-2) .on none
    check 177 (decide (x5.loc = 4))
    let x6 ← x4.rollforward x1 (-2) .any none
    check 178 (decide (x6.loc = 6))
    raises 179 [.outOfBounds] (do
      let x7 ← x4.rollforward x1 (-2) .off none
      pure ())
    pure ()) = true := by decide +kernel

/-- timeboard/tests/test_workshift_compound.py 185: `TestRollBackCompound.test_rollback_trivial_0_to_self`. -/
example : passes (do
    let (x1, x2) ← Timeboard.new (L := V) { freq := (⟨none, .D, by decide⟩ : Freq), start := (ts 2016 12 31), stop := (ts 2017 1 12), layout := .organizer (.marker { each := (⟨none, .W none, by decide⟩ : Freq), ats := [] }) [.label (.i 100), .pattern (.list [(.i 0), (.i 0), (.i 1), (.i 1)])], selector := V.truthy, defaultLabel := V.none } (noHeap : Heap V)
    let x3 ← x1.call1 (.point (ts 2017 1 11))
    let x4 ← asWs x3
    let x5 ← x4.rollback x1 0 .on none
    check 189 (decide (x5.loc = 8))
    let x6 ← x1.call1 (.point (ts 2017 1 12))
    let x7 ← asWs x6
    let x8 ← x7.rollback x1 0 .on none
    check 192 (decide (x8.loc = 8))
    pure ()) = true := by decide +kernel

/-- timeboard/tests/test_workshift_compound.py 195: `TestRollBackCompound.test_rollback_trivial_0_to_next`. -/
example : passes (do
    let (x1, x2) ← Timeboard.new (L := V) { freq := (⟨none, .D, by decide⟩ : Freq), start := (ts 2016 12 31), stop := (ts 2017 1 12), layout := .organizer (.marker { each := (⟨none, .W none, by decide⟩ : Freq), ats := [] }) [.label (.i 100), .pattern (.list [(.i 0), (.i 0), (.i 1), (.i 1)])], selector := V.truthy, defaultLabel := V.none } (noHeap : Heap V)
    let x3 ← x1.call1 (.point (ts 2017 1 2))
    let x4 ← asWs x3
    let x5 ← x4.rollback x1 0 .on none
    check 199 (decide (x5.loc = 0))
    let x6 ← x5.startTime x1
    check 200 (decide (x6 = (ts 2016 12 31)))
    pure ()) = true := by decide +kernel

/-- timeboard/tests/test_workshift_compound.py 202: `TestRollBackCompound.test_rollback_on_0`. -/
example : passes (do
    let (x1, x2) ← Timeboard.new (L := V) { freq := (⟨none, .D, by decide⟩ : Freq), start := (ts 2016 12 31), stop := (ts 2017 1 12), layout := .organizer (.marker { each := (⟨none, .W none, by decide⟩ : Freq), ats := [] }) [.label (.i 100), .pattern (.list [(.i 0), (.i 0), (.i 1), (.i 1)])], selector := V.truthy, defaultLabel := V.none } (noHeap : Heap V)
    let x3 ← x1.call1 (.point (ts 2017 1 10))
    let x4 ← asWs x3
    let x5 ← x4.rollback x1 0 .on none
    let x6 ← x4.rollback x1 0 .off none
    let x7 ← x4.rollback x1 0 .same none
    let x8 ← x4.rollback x1 0 .alt none
    let x9 ← x4.rollback x1 0 .any none
    check 208 ((decide (x5.loc = 8)) && (decide (x6.loc = 6)) && (decide (x7.loc = 8)) && (decide (x8.loc = 6)) && (decide (x9.loc = 8)))
    pure ()) = true := by decide +kernel

/-- timeboard/tests/test_workshift_compound.py 210: `TestRollBackCompound.test_rollback_off_0`. -/
example : passes (do
    let (x1, x2) ← Timeboard.new (L := V) { freq := (⟨none, .D, by decide⟩ : Freq), start := (ts 2016 12 31), stop := (ts 2017 1 12), layout := .organizer (.marker { each := (⟨none, .W none, by decide⟩ : Freq), ats := [] }) [.label (.i 0), .pattern (.list [(.i 0), (.i 0), (.i 1), (.i 1)])], selector := V.truthy, defaultLabel := V.none } (noHeap : Heap V)
    let x3 ← x1.call1 (.point (ts 2017 1 12))
    let x4 ← asWs x3
    let x5 ← x4.rollback x1 0 .on none
    let x6 ← x4.rollback x1 0 .off none
    let x7 ← x4.rollback x1 0 .same none
    let x8 ← x4.rollback x1 0 .alt none
    let x9 ← x4.rollback x1 0 .any none
    check 219 ((decide (x5.loc = 7)) && (decide (x6.loc = 8)) && (decide (x7.loc = 8)) && (decide (x8.loc = 7)) && (decide (x9.loc = 8)))
    pure ()) = true := by decide +kernel

/-- timeboard/tests/test_workshift_compound.py 221: `TestRollBackCompound.test_rollback_on_n`. -/
example : passes (do
    let (x1, x2) ← Timeboard.new (L := V) { freq := (⟨none, .D, by decide⟩ : Freq), start := (ts 2016 12 31), stop := (ts 2017 1 12), layout := .organizer (.marker { each := (⟨none, .W none, by decide⟩ : Freq), ats := [] }) [.label (.i 100), .pattern (.list [(.i 0), (.i 0), (.i 1), (.i 1)])], selector := V.truthy, defaultLabel := V.none } (noHeap : Heap V)
    let x3 ← x1.call1 (.point (ts 2017 1 11))
    let x4 ← asWs x3
    let x5 ← x4.rollback x1 2 .on none
    let x6 ← x4.rollback x1 2 .off none
    let x7 ← x4.rollback x1 2 .same none
    let x8 ← x4.rollback x1 2 .alt none
    let x9 ← x4.rollback x1 2 .any none
    check 227 ((decide (x5.loc = 4)) && (decide (x6.loc = 2)) && (decide (x7.loc = 4)) && (decide (x8.loc = 2)) && (decide (x9.loc = 6)))
    pure ()) = true := by decide +kernel

/-- timeboard/tests/test_workshift_compound.py 229: `TestRollBackCompound.test_rollback_off_n`. -/
example : passes (do
    let (x1, x2) ← Timeboard.new (L := V) { freq := (⟨none, .D, by decide⟩ : Freq), start := (ts 2016 12 31), stop := (ts 2017 1 12), layout := .organizer (.marker { each := (⟨none, .W none, by decide⟩ : Freq), ats := [] }) [.label (.i 100), .pattern (.list [(.i 0), (.i 0), (.i 1), (.i 1)])], selector := V.truthy, defaultLabel := V.none } (noHeap : Heap V)
    let x3 ← x1.call1 (.point (ts 2017 1 7))
    let x4 ← asWs x3
    let x5 ← x4.rollback x1 2 .on none
    let x6 ← x4.rollback x1 2 .off none
    let x7 ← x4.rollback x1 2 .same none
    let x8 ← x4.rollback x1 2 .alt none
    let x9 ← x4.rollback x1 2 .any none
    check 235 ((decide (x5.loc = 0)) && (decide (x6.loc = 2)) && (decide (x7.loc = 2)) && (decide (x8.loc = 0)) && (decide (x9.loc = 4)))
    pure ()) = true := by decide +kernel

/-- timeboard/tests/test_workshift_compound.py 237: `TestRollBackCompound.test_rollback_on_n_negative`. -/
example : passes (do
    let (x1, x2) ← Timeboard.new (L := V) { freq := (⟨none, .D, by decide⟩ : Freq), start := (ts 2016 12 31), stop := (ts 2017 1 12), layout := .organizer (.marker { each := (⟨none, .W none, by decide⟩ : Freq), ats := [] }) [.label (.i 100), .pattern (.list [(.i 0), (.i 0), (.i 1), (.i 1)])], selector := V.truthy, defaultLabel := V.none } (noHeap : Heap V)
    let x3 ← x1.call1 (.point (ts 2017 1 5))
    let x4 ← asWs x3
    let x5 ← x4.rollback x1 (-2) .on none
    let x6 ← x4.rollback x1 (-2) .off none
    let x7 ← x4.rollback x1 (-2) .same none
    let x8 ← x4.rollback x1 (-2) .alt none
    let x9 ← x4.rollback x1 (-2) .any none
    check 243 ((decide (x5.loc = 8)) && (decide (x6.loc = 6)) && (decide (x7.loc = 8)) && (decide (x8.loc = 6)) && (decide (x9.loc = 6)))
    pure ()) = true := by decide +kernel

/-- timeboard/tests/test_workshift_compound.py 245: `TestRollBackCompound.test_rollback_off_n_negative`. -/
example : passes (do
    let (x1, x2) ← Timeboard.new (L := V) { freq := (⟨none, .D, by decide⟩ : Freq), start := (ts 2016 12 31), stop := (ts 2017 1 12), layout := .organizer (.marker { each := (⟨none, .W none, by decide⟩ : Freq), ats := [] }) [.label (.i 100), .pattern (.list [(.i 0), (.i 0), (.i 1), (.i 1)])], selector := V.truthy, defaultLabel := V.none } (noHeap : Heap V)
    let x3 ← x1.call1 (.point (ts 2017 1 3))
    let x4 ← asWs x3
    let x5 ← x4.rollback x1 (-2) .on none
    let x6 ← x4.rollback x1 (-2) .off none
    let x7 ← x4.rollback x1 (-2) .same none
    let x8 ← x4.rollback x1 (-2) .alt none
    let x9 ← x4.rollback x1 (-2) .any none
    check 251 ((decide (x5.loc = 4)) && (decide (x6.loc = 6)) && (decide (x7.loc = 6)) && (decide (x8.loc = 4)) && (decide (x9.loc = 4)))
    pure ()) = true := by decide +kernel

end TB.Conf
