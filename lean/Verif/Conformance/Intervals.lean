import Verif.Conformance.Support
/-!
# `timeboard/tests/test_intervals.py`

Generated by `tools/conformance.py`.  One example per unit test: the statements of the test, performed by the
model, succeed.  These are checks of the model on single inputs, not proofs of properties.
-/
set_option linter.unusedVariables false
namespace TB.Conf

/-- timeboard/tests/test_intervals.py 23: `TestIntervalLocatorFromReference.test_interval_locator_default`. -/
example : passes (do
    let (x1, x2) ← Timeboard.new (L := V) { freq := (⟨none, .D, by decide⟩ : Freq), start := (ts 2016 12 31), stop := (ts 2017 1 12), layout := .pattern (.list [(.i 0), (.i 1), (.i 0)]), selector := V.truthy, defaultLabel := V.none } (noHeap : Heap V)
    let x3 ← x1.locsFromReference none false false
    check 25 (decide (x3 = ({ pos := some 0, side := 0 }, { pos := some 12, side := 0 })))
    pure ()) = true := by decide +kernel

/-- timeboard/tests/test_intervals.py 29: `TestIntervalLocatorFromReference.test_interval_locator_with_two_ts`. -/
example : passes (do
    let (x1, x2) ← Timeboard.new (L := V) { freq := (⟨none, .D, by decide⟩ : Freq), start := (ts 2016 12 31), stop := (ts 2017 1 12), layout := .pattern (.list [(.i 0), (.i 1), (.i 0)]), selector := V.truthy, defaultLabel := V.none } (noHeap : Heap V)
    let x3 ← x1.locsFromReference (some (.pair (some (ts 2017 1 2 15)) (some (ts 2017 1 8 15)))) false false
    check 31 (decide (x3 = ({ pos := some 2, side := 0 }, { pos := some 8, side := 0 })))
    let x4 ← x1.locsFromReference (some (.pair (some (ts 2017 1 8 15)) (some (ts 2017 1 2 15)))) false false
    check 35 (decide (x4 = ({ pos := some 8, side := 0 }, { pos := some 2, side := 0 })))
    pure ()) = true := by decide +kernel

/-- timeboard/tests/test_intervals.py 39: `TestIntervalLocatorFromReference.test_interval_locator_with_with_excessive_item`. -/
example : passes (do
    let (x1, x2) ← Timeboard.new (L := V) { freq := (⟨none, .D, by decide⟩ : Freq), start := (ts 2016 12 31), stop := (ts 2017 1 12), layout := .pattern (.list [(.i 0), (.i 1), (.i 0)]), selector := V.truthy, defaultLabel := V.none } (noHeap : Heap V)
    let x3 ← x1.locsFromReference (some (.pair (some (ts 2017 1 2 15)) (some (ts 2017 1 8 15)))) false false
    check 41 (decide (x3 = ({ pos := some 2, side := 0 }, { pos := some 8, side := 0 })))
    pure ()) = true := by decide +kernel

/-- timeboard/tests/test_intervals.py 45: `TestIntervalLocatorFromReference.test_interval_locator_with_two_pd_ts`. -/
example : passes (do
    let (x1, x2) ← Timeboard.new (L := V) { freq := (⟨none, .D, by decide⟩ : Freq), start := (ts 2016 12 31), stop := (ts 2017 1 12), layout := .pattern (.list [(.i 0), (.i 1), (.i 0)]), selector := V.truthy, defaultLabel := V.none } (noHeap : Heap V)
    let x3 ← x1.locsFromReference (some (.pair (some (ts 2017 1 2 15)) (some (ts 2017 1 8 15)))) false false
    check 47 (decide (x3 = ({ pos := some 2, side := 0 }, { pos := some 8, side := 0 })))
    pure ()) = true := by decide +kernel

/-- timeboard/tests/test_intervals.py 53: `TestIntervalLocatorFromReference.test_interval_locator_with_two_datettime_ts`. -/
example : passes (do
    let (x1, x2) ← Timeboard.new (L := V) { freq := (⟨none, .D, by decide⟩ : Freq), start := (ts 2016 12 31), stop := (ts 2017 1 12), layout := .pattern (.list [(.i 0), (.i 1), (.i 0)]), selector := V.truthy, defaultLabel := V.none } (noHeap : Heap V)
    let x3 ← x1.locsFromReference (some (.pair (some (ts 2017 1 2 15)) (some (ts 2017 1 8 15)))) false false
    check 55 (decide (x3 = ({ pos := some 2, side := 0 }, { pos := some 8, side := 0 })))
    pure ()) = true := by decide +kernel

/-- timeboard/tests/test_intervals.py 61: `TestIntervalLocatorFromReference.test_interval_locator_with_OOB_ts`. -/
example : passes (do
    let (x1, x2) ← Timeboard.new (L := V) { freq := (⟨none, .D, by decide⟩ : Freq), start := (ts 2016 12 31), stop := (ts 2017 1 12), layout := .pattern (.list [(.i 0), (.i 1), (.i 0)]), selector := V.truthy, defaultLabel := V.none } (noHeap : Heap V)
    let x3 ← x1.locsFromReference (some (.pair (some (ts 2017 1 2 15)) (some (ts 2017 1 13 15)))) false false
    check 64 (decide (x3 = ({ pos := some 2, side := 0 }, { pos := none, side := 1 })))
    let x4 ← x1.locsFromReference (some (.pair (some (ts 2016 12 30 15)) (some (ts 2017 1 8 15)))) false false
    check 67 (decide (x4 = ({ pos := none, side := (-1) }, { pos := some 8, side := 0 })))
    let x5 ← x1.locsFromReference (some (.pair (some (ts 2016 12 30 15)) (some (ts 2017 1 13 15)))) false false
    check 71 (decide (x5 = ({ pos := none, side := (-1) }, { pos := none, side := 1 })))
    let x6 ← x1.locsFromReference (some (.pair (some (ts 2017 1 13 15)) (some (ts 2016 12 30 15)))) false false
    check 74 (decide (x6 = ({ pos := none, side := 1 }, { pos := none, side := (-1) })))
    let x7 ← x1.locsFromReference (some (.pair (some (ts 2016 12 25 15)) (some (ts 2016 12 30 15)))) false false
    check 78 (decide (x7 = ({ pos := none, side := (-1) }, { pos := none, side := (-1) })))
    let x8 ← x1.locsFromReference (some (.pair (some (ts 2016 12 30 15)) (some (ts 2016 12 25 15)))) false false
    check 81 (decide (x8 = ({ pos := none, side := (-1) }, { pos := none, side := (-1) })))
    let x9 ← x1.locsFromReference (some (.pair (some (ts 2017 1 13 15)) (some (ts 2017 1 15 15)))) false false
    check 84 (decide (x9 = ({ pos := none, side := 1 }, { pos := none, side := 1 })))
    let x10 ← x1.locsFromReference (some (.pair (some (ts 2017 1 15 15)) (some (ts 2017 1 13 15)))) false false
    check 87 (decide (x10 = ({ pos := none, side := 1 }, { pos := none, side := 1 })))
    pure ()) = true := by decide +kernel

/-- timeboard/tests/test_intervals.py 91: `TestIntervalLocatorFromReference.test_interval_locator_from_pd_periods`. -/
example : passes (do
    let (x1, x2) ← Timeboard.new (L := V) { freq := (⟨none, .D, by decide⟩ : Freq), start := (ts 2016 12 31), stop := (ts 2017 1 12), layout := .pattern (.list [(.i 0), (.i 1), (.i 0)]), selector := V.truthy, defaultLabel := V.none } (noHeap : Heap V)
    let x3 ← x1.locsFromReference (some (.pair (some (Period.ofTime (⟨none, .M, by decide⟩ : Freq) (ts 2017 1 2)).startTime) (some (ts 2017 1 11 15)))) false false
    check 97 (decide (x3 = ({ pos := some 1, side := 0 }, { pos := some 11, side := 0 })))
    let x4 ← x1.locsFromReference (some (.pair (some (Period.ofTime (⟨none, .M, by decide⟩ : Freq) (ts 2016 12 31)).startTime) (some (ts 2017 1 11 15)))) false false
    check 102 (decide (x4 = ({ pos := none, side := (-1) }, { pos := some 11, side := 0 })))
    let x5 ← x1.locsFromReference (some (.pair (some (Period.ofTime (⟨none, .W none, by decide⟩ : Freq) (ts 2017 1 5)).startTime) (some (ts 2017 1 11 15)))) false false
    check 107 (decide (x5 = ({ pos := some 2, side := 0 }, { pos := some 11, side := 0 })))
    let x6 ← x1.locsFromReference (some (.pair (some (Period.ofTime (⟨none, .W (some 0), by decide⟩ : Freq) (ts 2017 1 2)).startTime) (some (ts 2017 1 11 15)))) false false
    check 113 (decide (x6 = ({ pos := none, side := (-1) }, { pos := some 11, side := 0 })))
    pure ()) = true := by decide +kernel

/-- timeboard/tests/test_intervals.py 128: `TestIntervalLocatorFromReference.test_interval_locator_with_singletons`. -/
example : passes (do
    let (x1, x2) ← Timeboard.new (L := V) { freq := (⟨none, .D, by decide⟩ : Freq), start := (ts 2016 12 31), stop := (ts 2017 1 12), layout := .pattern (.list [(.i 0), (.i 1), (.i 0)]), selector := V.truthy, defaultLabel := V.none } (noHeap : Heap V)
    raises 130 [.typeError] (do
      let x3 ← x1.locsFromReference (some .short) false false
      pure ())
    raises 133 [.typeError] (do
      let x4 ← x1.locsFromReference (some (.point (ts 2017 1 8 15))) false false
      pure ())
    raises 136 [.typeError] (do
      let x5 ← x1.locsFromReference (some (.point (ts 2017 1 8 15))) false false
      pure ())
    pure ()) = true := by decide +kernel

/-- timeboard/tests/test_intervals.py 143: `TestIntervalStripLocs.test_interval_strip_locs`. -/
example : passes (do
    let (x1, x2) ← Timeboard.new (L := V) { freq := (⟨none, .D, by decide⟩ : Freq), start := (ts 2016 12 31), stop := (ts 2017 1 12), layout := .pattern (.list [(.i 0), (.i 1), (.i 0)]), selector := V.truthy, defaultLabel := V.none } (noHeap : Heap V)
    check 145 (decide (stripLocs ({ pos := some 2, side := 5 }, { pos := some 8, side := 6 }) false false = ({ pos := some 2, side := 5 }, { pos := some 8, side := 6 })))
    check 148 (decide (stripLocs ({ pos := some 2, side := 5 }, { pos := some 8, side := 6 }) true false = ({ pos := some 3, side := 5 }, { pos := some 8, side := 6 })))
    check 151 (decide (stripLocs ({ pos := some 2, side := 5 }, { pos := some 8, side := 6 }) false true = ({ pos := some 2, side := 5 }, { pos := some 7, side := 6 })))
    check 154 (decide (stripLocs ({ pos := some 2, side := 5 }, { pos := some 8, side := 6 }) true true = ({ pos := some 3, side := 5 }, { pos := some 7, side := 6 })))
    check 157 (decide (stripLocs ({ pos := some 2, side := 5 }, { pos := some 4, side := 6 }) true true = ({ pos := some 3, side := 5 }, { pos := some 3, side := 6 })))
    pure ()) = true := by decide +kernel

/-- timeboard/tests/test_intervals.py 162: `TestIntervalStripLocs.test_interval_strip_locs_single_unit`. -/
example : passes (do
    let (x1, x2) ← Timeboard.new (L := V) { freq := (⟨none, .D, by decide⟩ : Freq), start := (ts 2016 12 31), stop := (ts 2017 1 12), layout := .pattern (.list [(.i 0), (.i 1), (.i 0)]), selector := V.truthy, defaultLabel := V.none } (noHeap : Heap V)
    check 164 (decide (stripLocs ({ pos := some 2, side := 5 }, { pos := some 2, side := 6 }) false false = ({ pos := some 2, side := 5 }, { pos := some 2, side := 6 })))
    check 167 (decide (stripLocs ({ pos := some 2, side := 5 }, { pos := some 2, side := 6 }) true false = ({ pos := some 3, side := 5 }, { pos := some 2, side := 6 })))
    check 170 (decide (stripLocs ({ pos := some 2, side := 5 }, { pos := some 2, side := 6 }) false true = ({ pos := some 2, side := 5 }, { pos := some 1, side := 6 })))
    check 173 (decide (stripLocs ({ pos := some 2, side := 5 }, { pos := some 2, side := 6 }) true true = ({ pos := some 3, side := 5 }, { pos := some 1, side := 6 })))
    pure ()) = true := by decide +kernel

/-- timeboard/tests/test_intervals.py 177: `TestIntervalStripLocs.test_interval_strip_locs_corner_cases`. -/
example : passes (do
    let (x1, x2) ← Timeboard.new (L := V) { freq := (⟨none, .D, by decide⟩ : Freq), start := (ts 2016 12 31), stop := (ts 2017 1 12), layout := .pattern (.list [(.i 0), (.i 1), (.i 0)]), selector := V.truthy, defaultLabel := V.none } (noHeap : Heap V)
    check 179 (decide (stripLocs ({ pos := some 0, side := 5 }, { pos := some 0, side := 6 }) true true = ({ pos := some 1, side := 5 }, { pos := some (-1), side := 6 })))
    check 182 (decide (stripLocs ({ pos := some (-4), side := 5 }, { pos := some (-2), side := 6 }) true true = ({ pos := some (-3), side := 5 }, { pos := some (-3), side := 6 })))
    check 185 (decide (stripLocs ({ pos := none, side := 5 }, { pos := some 2, side := 6 }) false false = ({ pos := none, side := 5 }, { pos := some 2, side := 6 })))
    check 188 (decide (stripLocs ({ pos := none, side := 5 }, { pos := some 2, side := 6 }) true false = ({ pos := none, side := 5 }, { pos := some 2, side := 6 })))
    check 191 (decide (stripLocs ({ pos := none, side := 5 }, { pos := some 2, side := 6 }) false true = ({ pos := none, side := 5 }, { pos := some 1, side := 6 })))
    check 194 (decide (stripLocs ({ pos := some 2, side := 5 }, { pos := none, side := 6 }) true true = ({ pos := some 3, side := 5 }, { pos := none, side := 6 })))
    check 197 (decide (stripLocs ({ pos := none, side := 5 }, { pos := none, side := 6 }) true true = ({ pos := none, side := 5 }, { pos := none, side := 6 })))
    pure ()) = true := by decide +kernel

/-- timeboard/tests/test_intervals.py 207: `TestIntervalStripLocs.test_get_interval_with_bad_closed`. Left out (arguments which the model cannot express): line 211. -/
example : passes (do
    let (x1, x2) ← Timeboard.new (L := V) { freq := (⟨none, .D, by decide⟩ : Freq), start := (ts 2016 12 31), stop := (ts 2017 1 12), layout := .pattern (.list [(.i 0), (.i 1), (.i 0)]), selector := V.truthy, defaultLabel := V.none } (noHeap : Heap V)
    raises 209 [.valueError, .partialOutOfBounds, .voidInterval, .unacceptablePeriod] (do
      let x3 ← x1.getInterval none none none true "010" none
      pure ())
    pure ()) = true := by decide +kernel

/-- timeboard/tests/test_intervals.py 217: `TestIntervalConstructorWithTS.test_interval_constructor_with_two_ts`. -/
example : passes (do
    let (x1, x2) ← Timeboard.new (L := V) { freq := (⟨none, .D, by decide⟩ : Freq), start := (ts 2016 12 31), stop := (ts 2017 1 12), layout := .pattern (.list [(.i 0), (.i 1), (.i 0)]), selector := V.truthy, defaultLabel := V.none } (noHeap : Heap V)
    let x3 ← x1.getInterval (some (.pair (some (ts 2017 1 2 15)) (some (ts 2017 1 8 15)))) none none true "11" none
    let x4 ← x3.startTime x1
    let x5 ← notNaT x4
    check 220 (decide (x5 = (ts 2017 1 2)))
    let x6 ← x3.endTime x1
    let x7 ← notNaT x6
    check 221 (decide (x7 > (ts 2017 1 8 23 59 59)))
    let x8 ← x3.endTime x1
    let x9 ← notNaT x8
    check 222 (decide (x9 < (ts 2017 1 9)))
    check 223 (decide ((x3.lo, x3.hi) = (2, 8)))
    check 224 (decide (x3.len = 7))
    let x10 ← x1.call1 (.pair (some (ts 2017 1 2 15)) (some (ts 2017 1 8 15)))
    let x11 ← asIvl x10
    check 227 (decide ((x11.lo, x11.hi) = (x3.lo, x3.hi)))
    pure ()) = true := by decide +kernel

/-- timeboard/tests/test_intervals.py 229: `TestIntervalConstructorWithTS.test_interval_constructor_with_none_ts`. -/
example : passes (do
    let (x1, x2) ← Timeboard.new (L := V) { freq := (⟨none, .D, by decide⟩ : Freq), start := (ts 2016 12 31), stop := (ts 2017 1 12), layout := .pattern (.list [(.i 0), (.i 1), (.i 0)]), selector := V.truthy, defaultLabel := V.none } (noHeap : Heap V)
    let x3 ← x1.getInterval (some (.pair none (some (ts 2017 1 8 15)))) none none true "11" none
    check 233 (decide ((x3.lo, x3.hi) = (0, 8)))
    let x4 ← x1.getInterval (some (.pair none (some (ts 2017 1 8 15)))) none none true "11" none
    check 235 (decide ((x4.lo, x4.hi) = (0, 8)))
    let x5 ← x1.call1 (.pair none (some (ts 2017 1 8 15)))
    let x6 ← asIvl x5
    check 237 (decide ((x6.lo, x6.hi) = (x4.lo, x4.hi)))
    let x7 ← x1.getInterval (some (.pair (some (ts 2017 1 2 15)) none)) none none true "11" none
    check 240 (decide ((x7.lo, x7.hi) = (2, 12)))
    let x8 ← x1.getInterval (some (.pair (some (ts 2017 1 2 15)) none)) none none true "11" none
    check 242 (decide ((x8.lo, x8.hi) = (2, 12)))
    let x9 ← x1.call1 (.pair (some (ts 2017 1 2 15)) none)
    let x10 ← asIvl x9
    check 244 (decide ((x10.lo, x10.hi) = (2, 12)))
    let x11 ← x1.getInterval (some (.pair none none)) none none true "11" none
    check 247 (decide ((x11.lo, x11.hi) = (0, 12)))
    let x12 ← x1.getInterval (some (.pair none none)) none none true "11" none
    check 249 (decide ((x12.lo, x12.hi) = (0, 12)))
    let x13 ← x1.call1 (.pair none none)
    let x14 ← asIvl x13
    check 251 (decide ((x14.lo, x14.hi) = (0, 12)))
    pure ()) = true := by decide +kernel

/-- timeboard/tests/test_intervals.py 254: `TestIntervalConstructorWithTS.test_interval_iterator`. -/
example : passes (do
    let (x1, x2) ← Timeboard.new (L := V) { freq := (⟨none, .D, by decide⟩ : Freq), start := (ts 2016 12 31), stop := (ts 2017 1 12), layout := .pattern (.list [(.i 0), (.i 1), (.i 0)]), selector := V.truthy, defaultLabel := V.none } (noHeap : Heap V)
    let x3 ← x1.getInterval (some (.pair (some (ts 2017 1 2 15)) (some (ts 2017 1 8 15)))) none none true "11" none
    let x4 ← x3.iter x1
    let x5 ← x3.iter x1
    check 261 (decide ((x4.length : Int) = 7))
    check 262 (decide ((x5.length : Int) = 7))
    let x6 ← item x4 0
    let x7 ← item x5 0
    let x8 ← item x4 0
    check 266 (decide (x8.loc = 2))
    let x9 ← item x4 0
    check 267 (decide (x9.loc = 2))
    let x10 ← item x4 1
    let x11 ← item x5 1
    let x12 ← item x4 1
    check 266 (decide (x12.loc = 3))
    let x13 ← item x4 1
    check 267 (decide (x13.loc = 3))
    let x14 ← item x4 2
    let x15 ← item x5 2
    let x16 ← item x4 2
    check 266 (decide (x16.loc = 4))
    let x17 ← item x4 2
    check 267 (decide (x17.loc = 4))
    let x18 ← item x4 3
    let x19 ← item x5 3
    let x20 ← item x4 3
    check 266 (decide (x20.loc = 5))
    let x21 ← item x4 3
    check 267 (decide (x21.loc = 5))
    let x22 ← item x4 4
    let x23 ← item x5 4
    let x24 ← item x4 4
    check 266 (decide (x24.loc = 6))
    let x25 ← item x4 4
    check 267 (decide (x25.loc = 6))
    let x26 ← item x4 5
    let x27 ← item x5 5
    let x28 ← item x4 5
    check 266 (decide (x28.loc = 7))
    let x29 ← item x4 5
    check 267 (decide (x29.loc = 7))
    let x30 ← item x4 6
    let x31 ← item x5 6
    let x32 ← item x4 6
    check 266 (decide (x32.loc = 8))
    let x33 ← item x4 6
    check 267 (decide (x33.loc = 8))
    pure ()) = true := by decide +kernel

/-- timeboard/tests/test_intervals.py 269: `TestIntervalConstructorWithTS.test_interval_constructor_with_two_ts_open_ended`. -/
example : passes (do
    let (x1, x2) ← Timeboard.new (L := V) { freq := (⟨none, .D, by decide⟩ : Freq), start := (ts 2016 12 31), stop := (ts 2017 1 12), layout := .pattern (.list [(.i 0), (.i 1), (.i 0)]), selector := V.truthy, defaultLabel := V.none } (noHeap : Heap V)
    let x3 ← x1.getInterval (some (.pair (some (ts 2017 1 2 15)) (some (ts 2017 1 8 15)))) none none true "11" none
    check 273 (decide ((x3.lo, x3.hi) = (2, 8)))
    check 274 (decide (x3.len = 7))
    let x4 ← x1.callN (some (.pair (some (ts 2017 1 2 15)) (some (ts 2017 1 8 15)))) none none true "11" none
    let x5 ← asIvl x4
    check 277 (decide ((x5.lo, x5.hi) = (x3.lo, x3.hi)))
    let x6 ← x1.getInterval (some (.pair (some (ts 2017 1 2 15)) (some (ts 2017 1 8 15)))) none none true "01" none
    check 281 (decide ((x6.lo, x6.hi) = (3, 8)))
    check 282 (decide (x6.len = 6))
    let x7 ← x1.getInterval (some (.pair (some (ts 2017 1 2 15)) (some (ts 2017 1 8 15)))) none none true "10" none
    check 285 (decide ((x7.lo, x7.hi) = (2, 7)))
    check 286 (decide (x7.len = 6))
    let x8 ← x1.getInterval (some (.pair (some (ts 2017 1 2 15)) (some (ts 2017 1 8 15)))) none none true "00" none
    check 289 (decide ((x8.lo, x8.hi) = (3, 7)))
    check 290 (decide (x8.len = 5))
    let x9 ← x1.getInterval (some (.pair (some (ts 2017 1 2 15)) (some (ts 2017 1 3 15)))) none none true "01" none
    check 293 (decide ((x9.lo, x9.hi) = (3, 3)))
    check 294 (decide (x9.len = 1))
    let x10 ← x1.getInterval (some (.pair (some (ts 2017 1 2 15)) (some (ts 2017 1 3 15)))) none none true "10" none
    check 297 (decide ((x10.lo, x10.hi) = (2, 2)))
    check 298 (decide (x10.len = 1))
    pure ()) = true := by decide +kernel

/-- timeboard/tests/test_intervals.py 300: `TestIntervalConstructorWithTS.test_interval_constructor_with_closed_leads_to_void`. -/
example : passes (do
    let (x1, x2) ← Timeboard.new (L := V) { freq := (⟨none, .D, by decide⟩ : Freq), start := (ts 2016 12 31), stop := (ts 2017 1 12), layout := .pattern (.list [(.i 0), (.i 1), (.i 0)]), selector := V.truthy, defaultLabel := V.none } (noHeap : Heap V)
    let x3 ← x1.getInterval (some (.pair (some (ts 2017 1 2 15)) (some (ts 2017 1 2 15)))) none none true "11" none
    check 303 (decide ((x3.lo, x3.hi) = (2, 2)))
    check 304 (decide (x3.len = 1))
    raises 305 [.voidInterval] (do
      let x4 ← x1.getInterval (some (.pair (some (ts 2017 1 2 15)) (some (ts 2017 1 2 15)))) none none true "01" none
      pure ())
    raises 308 [.voidInterval] (do
      let x5 ← x1.callN (some (.pair (some (ts 2017 1 2 15)) (some (ts 2017 1 2 15)))) none none true "01" none
      let x6 ← asIvl x5
      pure ())
    raises 310 [.voidInterval] (do
      let x7 ← x1.getInterval (some (.pair (some (ts 2017 1 2 15)) (some (ts 2017 1 2 15)))) none none true "10" none
      pure ())
    raises 313 [.voidInterval] (do
      let x8 ← x1.getInterval (some (.pair (some (ts 2017 1 2 15)) (some (ts 2017 1 2 15)))) none none true "00" none
      pure ())
    raises 316 [.voidInterval] (do
      let x9 ← x1.getInterval (some (.pair (some (ts 2017 1 2 15)) (some (ts 2017 1 3 15)))) none none true "00" none
      pure ())
    pure ()) = true := by decide +kernel

/-- timeboard/tests/test_intervals.py 320: `TestIntervalConstructorWithTS.test_interval_constructor_with_OOB_ts`. -/
example : passes (do
    let (x1, x2) ← Timeboard.new (L := V) { freq := (⟨none, .D, by decide⟩ : Freq), start := (ts 2016 12 31), stop := (ts 2017 1 12), layout := .pattern (.list [(.i 0), (.i 1), (.i 0)]), selector := V.truthy, defaultLabel := V.none } (noHeap : Heap V)
    raises 323 [.partialOutOfBounds] (do
      let x3 ← x1.getInterval (some (.pair (some (ts 2017 1 2 15)) (some (ts 2017 1 13 15)))) none none true "11" none
      pure ())
    raises 325 [.partialOutOfBounds] (do
      let x4 ← x1.getInterval (some (.pair (some (ts 2017 1 2 15)) (some (ts 2017 1 13 15)))) none none false "11" none
      pure ())
    raises 328 [.partialOutOfBounds] (do
      let x5 ← x1.callN (some (.pair (some (ts 2017 1 2 15)) (some (ts 2017 1 13 15)))) none none false "11" none
      let x6 ← asIvl x5
      pure ())
    raises 331 [.partialOutOfBounds] (do
      let x7 ← x1.getInterval (some (.pair (some (ts 2016 12 30 15)) (some (ts 2017 1 8 15)))) none none true "11" none
      pure ())
    raises 333 [.partialOutOfBounds] (do
      let x8 ← x1.getInterval (some (.pair (some (ts 2016 12 30 15)) (some (ts 2017 1 8 15)))) none none false "11" none
      pure ())
    raises 337 [.partialOutOfBounds] (do
      let x9 ← x1.getInterval (some (.pair (some (ts 2016 12 30 15)) (some (ts 2017 1 13 15)))) none none true "11" none
      pure ())
    raises 339 [.partialOutOfBounds] (do
      let x10 ← x1.getInterval (some (.pair (some (ts 2016 12 30 15)) (some (ts 2017 1 13 15)))) none none false "11" none
      pure ())
    raises 342 [.voidInterval] (do
      let x11 ← x1.getInterval (some (.pair (some (ts 2017 1 13 15)) (some (ts 2016 12 30 15)))) none none true "11" none
      pure ())
    raises 345 [.outOfBounds] (do
      let x12 ← x1.getInterval (some (.pair (some (ts 2016 12 25 15)) (some (ts 2016 12 30 15)))) none none true "11" none
      pure ())
    raises 348 [.outOfBounds] (do
      let x13 ← x1.getInterval (some (.pair (some (ts 2016 12 30 15)) (some (ts 2016 12 25 15)))) none none true "11" none
      pure ())
    raises 350 [.outOfBounds] (do
      let x14 ← x1.getInterval (some (.pair (some (ts 2017 1 13 15)) (some (ts 2017 1 15 15)))) none none true "11" none
      pure ())
    raises 353 [.outOfBounds] (do
      let x15 ← x1.getInterval (some (.pair (some (ts 2017 1 15 15)) (some (ts 2017 1 13 15)))) none none true "11" none
      pure ())
    pure ()) = true := by decide +kernel

/-- timeboard/tests/test_intervals.py 356: `TestIntervalConstructorWithTS.test_interval_constructor_with_same_ts`. -/
example : passes (do
    let (x1, x2) ← Timeboard.new (L := V) { freq := (⟨none, .D, by decide⟩ : Freq), start := (ts 2016 12 31), stop := (ts 2017 1 12), layout := .pattern (.list [(.i 0), (.i 1), (.i 0)]), selector := V.truthy, defaultLabel := V.none } (noHeap : Heap V)
    let x3 ← x1.getInterval (some (.pair (some (ts 2017 1 2 15)) (some (ts 2017 1 2 15)))) none none true "11" none
    let x4 ← x3.startTime x1
    let x5 ← notNaT x4
    check 359 (decide (x5 = (ts 2017 1 2)))
    let x6 ← x3.endTime x1
    let x7 ← notNaT x6
    check 360 (decide (x7 > (ts 2017 1 2 23 59 59)))
    let x8 ← x3.endTime x1
    let x9 ← notNaT x8
    check 361 (decide (x9 < (ts 2017 1 3)))
    check 362 (decide ((x3.lo, x3.hi) = (2, 2)))
    check 363 (decide (x3.len = 1))
    pure ()) = true := by decide +kernel

/-- timeboard/tests/test_intervals.py 365: `TestIntervalConstructorWithTS.test_interval_constructor_reverse_ts_to_same_BU`. -/
example : passes (do
    let (x1, x2) ← Timeboard.new (L := V) { freq := (⟨none, .D, by decide⟩ : Freq), start := (ts 2016 12 31), stop := (ts 2017 1 12), layout := .pattern (.list [(.i 0), (.i 1), (.i 0)]), selector := V.truthy, defaultLabel := V.none } (noHeap : Heap V)
    let x3 ← x1.getInterval (some (.pair (some (ts 2017 1 2 15)) (some (ts 2017 1 2 10)))) none none true "11" none
    let x4 ← x3.startTime x1
    let x5 ← notNaT x4
    check 368 (decide (x5 = (ts 2017 1 2)))
    let x6 ← x3.endTime x1
    let x7 ← notNaT x6
    check 369 (decide (x7 > (ts 2017 1 2 23 59 59)))
    let x8 ← x3.endTime x1
    let x9 ← notNaT x8
    check 370 (decide (x9 < (ts 2017 1 3)))
    check 371 (decide ((x3.lo, x3.hi) = (2, 2)))
    check 372 (decide (x3.len = 1))
    pure ()) = true := by decide +kernel

/-- timeboard/tests/test_intervals.py 374: `TestIntervalConstructorWithTS.test_interval_constructor_reverse_ts`. -/
example : passes (do
    let (x1, x2) ← Timeboard.new (L := V) { freq := (⟨none, .D, by decide⟩ : Freq), start := (ts 2016 12 31), stop := (ts 2017 1 12), layout := .pattern (.list [(.i 0), (.i 1), (.i 0)]), selector := V.truthy, defaultLabel := V.none } (noHeap : Heap V)
    raises 376 [.voidInterval] (do
      let x3 ← x1.getInterval (some (.pair (some (ts 2017 1 8 15)) (some (ts 2017 1 2 15)))) none none true "11" none
      pure ())
    raises 378 [.voidInterval] (do
      let x4 ← x1.call1 (.pair (some (ts 2017 1 8 15)) (some (ts 2017 1 2 15)))
      let x5 ← asIvl x4
      pure ())
    pure ()) = true := by decide +kernel

/-- timeboard/tests/test_intervals.py 381: `TestIntervalConstructorWithTS.test_interval_constructor_two_pd_periods_as_ts`. -/
example : passes (do
    let (x1, x2) ← Timeboard.new (L := V) { freq := (⟨none, .D, by decide⟩ : Freq), start := (ts 2016 12 31), stop := (ts 2017 3 31), layout := .pattern (.list [(.i 0), (.i 1), (.i 0)]), selector := V.truthy, defaultLabel := V.none } (noHeap : Heap V)
    let x3 ← x1.getInterval (some (.pair (some (Period.ofTime (⟨none, .M, by decide⟩ : Freq) (ts 2017 1 5 15)).startTime) (some (Period.ofTime (⟨none, .M, by decide⟩ : Freq) (ts 2017 2 19 15)).startTime))) none none true "11" none
    let x4 ← x3.startTime x1
    let x5 ← notNaT x4
    check 387 (decide (x5 = (ts 2017 1 1)))
    let x6 ← x3.endTime x1
    let x7 ← notNaT x6
    check 388 (decide (x7 > (ts 2017 2 1 23 59 59)))
    let x8 ← x3.endTime x1
    let x9 ← notNaT x8
    check 389 (decide (x9 < (ts 2017 2 2)))
    check 390 (decide ((x3.lo, x3.hi) = (1, 32)))
    check 391 (decide (x3.len = 32))
    let x10 ← x1.call1 (.pair (some (Period.ofTime (⟨none, .M, by decide⟩ : Freq) (ts 2017 1 5 15)).startTime) (some (Period.ofTime (⟨none, .M, by decide⟩ : Freq) (ts 2017 2 19 15)).startTime))
    let x11 ← asIvl x10
    check 395 (decide ((x11.lo, x11.hi) = (x3.lo, x3.hi)))
    pure ()) = true := by decide +kernel

/-- timeboard/tests/test_intervals.py 400: `TestIntervalConstructorDefault.test_interval_constructor_default`. -/
example : passes (do
    let (x1, x2) ← Timeboard.new (L := V) { freq := (⟨none, .D, by decide⟩ : Freq), start := (ts 2016 12 31), stop := (ts 2017 1 12), layout := .pattern (.list [(.i 0), (.i 1), (.i 0)]), selector := V.truthy, defaultLabel := V.none } (noHeap : Heap V)
    let x3 ← x1.getInterval none none none true "11" none
    let x4 ← x3.startTime x1
    let x5 ← notNaT x4
    check 403 (decide (x5 = (ts 2016 12 31)))
    let x6 ← x3.endTime x1
    let x7 ← notNaT x6
    check 404 (decide (x7 > (ts 2017 1 12 23 59 59)))
    let x8 ← x3.endTime x1
    let x9 ← notNaT x8
    check 405 (decide (x9 < (ts 2017 1 13)))
    check 406 (decide ((x3.lo, x3.hi) = (0, 12)))
    check 407 (decide (x3.len = 13))
    pure ()) = true := by decide +kernel

/-- timeboard/tests/test_intervals.py 409: `TestIntervalConstructorDefault.test_interval_constructor_default_open_ended`. -/
example : passes (do
    let (x1, x2) ← Timeboard.new (L := V) { freq := (⟨none, .D, by decide⟩ : Freq), start := (ts 2016 12 31), stop := (ts 2017 1 12), layout := .pattern (.list [(.i 0), (.i 1), (.i 0)]), selector := V.truthy, defaultLabel := V.none } (noHeap : Heap V)
    let x3 ← x1.getInterval none none none true "00" none
    let x4 ← x3.startTime x1
    let x5 ← notNaT x4
    check 412 (decide (x5 = (ts 2017 1 1)))
    let x6 ← x3.endTime x1
    let x7 ← notNaT x6
    check 413 (decide (x7 > (ts 2017 1 11 23 59 59)))
    let x8 ← x3.endTime x1
    let x9 ← notNaT x8
    check 414 (decide (x9 < (ts 2017 1 12)))
    check 415 (decide ((x3.lo, x3.hi) = (1, 11)))
    check 416 (decide (x3.len = 11))
    pure ()) = true := by decide +kernel

/-- timeboard/tests/test_intervals.py 418: `TestIntervalConstructorDefault.test_interval_constructor_default_closed_leads_to_void`. -/
example : passes (do
    let (x1, x2) ← Timeboard.new (L := V) { freq := (⟨none, .D, by decide⟩ : Freq), start := (ts 2017 1 1), stop := (ts 2017 1 1), layout := .pattern (.list [(.i 1)]), selector := V.truthy, defaultLabel := V.none } (noHeap : Heap V)
    raises 422 [.voidInterval] (do
      let x3 ← x1.getInterval none none none true "01" none
      pure ())
    raises 424 [.voidInterval] (do
      let x4 ← x1.getInterval none none none true "10" none
      pure ())
    raises 426 [.voidInterval] (do
      let x5 ← x1.getInterval none none none true "00" none
      pure ())
    pure ()) = true := by decide +kernel

/-- timeboard/tests/test_intervals.py 432: `TestIntervalConstructorFromPeriod.test_interval_constructor_with_period`. -/
example : passes (do
    let (x1, x2) ← Timeboard.new (L := V) { freq := (⟨none, .D, by decide⟩ : Freq), start := (ts 2016 12 31), stop := (ts 2017 1 12), layout := .pattern (.list [(.i 0), (.i 1), (.i 0)]), selector := V.truthy, defaultLabel := V.none } (noHeap : Heap V)
    let x3 ← x1.getInterval (some (.point (ts 2017 1 2 15))) none (some (⟨none, .W none, by decide⟩ : Freq)) true "11" none
    let x4 ← x3.startTime x1
    let x5 ← notNaT x4
    check 435 (decide (x5 = (ts 2017 1 2)))
    let x6 ← x3.endTime x1
    let x7 ← notNaT x6
    check 436 (decide (x7 > (ts 2017 1 8 23 59 59)))
    let x8 ← x3.endTime x1
    let x9 ← notNaT x8
    check 437 (decide (x9 < (ts 2017 1 9)))
    check 438 (decide ((x3.lo, x3.hi) = (2, 8)))
    check 439 (decide (x3.len = 7))
    let x10 ← x1.callN (some (.point (ts 2017 1 2 15))) none (some (⟨none, .W none, by decide⟩ : Freq)) true "11" none
    let x11 ← asIvl x10
    check 442 (decide ((x11.lo, x11.hi) = (x3.lo, x3.hi)))
    pure ()) = true := by decide +kernel

/-- timeboard/tests/test_intervals.py 444: `TestIntervalConstructorFromPeriod.test_interval_constructor_with_OOB_period`. -/
example : passes (do
    let (x1, x2) ← Timeboard.new (L := V) { freq := (⟨none, .D, by decide⟩ : Freq), start := (ts 2016 12 31), stop := (ts 2017 1 12), layout := .pattern (.list [(.i 0), (.i 1), (.i 0)]), selector := V.truthy, defaultLabel := V.none } (noHeap : Heap V)
    let x3 ← x1.getInterval (some (.point (ts 2017 1 1 15))) none (some (⟨none, .W none, by decide⟩ : Freq)) true "11" none
    check 448 (decide ((x3.lo, x3.hi) = (0, 1)))
    raises 449 [.partialOutOfBounds] (do
      let x4 ← x1.getInterval (some (.point (ts 2017 1 1 15))) none (some (⟨none, .W none, by decide⟩ : Freq)) false "11" none
      pure ())
    raises 452 [.partialOutOfBounds] (do
      let x5 ← x1.callN (some (.point (ts 2017 1 1 15))) none (some (⟨none, .W none, by decide⟩ : Freq)) false "11" none
      let x6 ← asIvl x5
      pure ())
    let x7 ← x1.getInterval (some (.point (ts 2016 12 26 15))) none (some (⟨none, .W none, by decide⟩ : Freq)) true "11" none
    check 457 (decide ((x7.lo, x7.hi) = (0, 1)))
    let x8 ← x1.getInterval (some (.point (ts 2017 1 10 15))) none (some (⟨none, .W none, by decide⟩ : Freq)) true "11" none
    check 460 (decide ((x8.lo, x8.hi) = (9, 12)))
    raises 461 [.partialOutOfBounds] (do
      let x9 ← x1.getInterval (some (.point (ts 2017 1 10 15))) none (some (⟨none, .W none, by decide⟩ : Freq)) false "11" none
      pure ())
    let x10 ← x1.getInterval (some (.point (ts 2017 1 14 15))) none (some (⟨none, .W none, by decide⟩ : Freq)) true "11" none
    check 466 (decide ((x10.lo, x10.hi) = (9, 12)))
    let x11 ← x1.getInterval (some (.point (ts 2017 3 10 15))) none (some (⟨none, .A (some 2), by decide⟩ : Freq)) true "11" none
    check 469 (decide ((x11.lo, x11.hi) = (0, 12)))
    raises 470 [.partialOutOfBounds] (do
      let x12 ← x1.getInterval (some (.point (ts 2017 3 10 15))) none (some (⟨none, .A (some 2), by decide⟩ : Freq)) false "11" none
      pure ())
    raises 474 [.outOfBounds] (do
      let x13 ← x1.getInterval (some (.point (ts 2017 1 18 15))) none (some (⟨none, .W none, by decide⟩ : Freq)) true "11" none
      pure ())
    pure ()) = true := by decide +kernel

/-- timeboard/tests/test_intervals.py 486: `TestIntervalConstructorFromPeriod.test_interval_constructor_from_pd_period`. -/
example : passes (do
    let (x1, x2) ← Timeboard.new (L := V) { freq := (⟨none, .D, by decide⟩ : Freq), start := (ts 2016 12 31), stop := (ts 2017 1 12), layout := .pattern (.list [(.i 0), (.i 1), (.i 0)]), selector := V.truthy, defaultLabel := V.none } (noHeap : Heap V)
    let x3 ← x1.getInterval (some (.period (Period.ofTime (⟨none, .W none, by decide⟩ : Freq) (ts 2017 1 5 15)))) none none true "11" none
    let x4 ← x3.startTime x1
    let x5 ← notNaT x4
    check 489 (decide (x5 = (ts 2017 1 2)))
    let x6 ← x3.endTime x1
    let x7 ← notNaT x6
    check 490 (decide (x7 > (ts 2017 1 8 23 59 59)))
    let x8 ← x3.endTime x1
    let x9 ← notNaT x8
    check 491 (decide (x9 < (ts 2017 1 9)))
    check 492 (decide ((x3.lo, x3.hi) = (2, 8)))
    check 493 (decide (x3.len = 7))
    let x10 ← x1.call1 (.period (Period.ofTime (⟨none, .W none, by decide⟩ : Freq) (ts 2017 1 5 15)))
    let x11 ← asWs x10
    check 499 (decide (x11.loc = 2))
    pure ()) = true := by decide +kernel

/-- timeboard/tests/test_intervals.py 501: `TestIntervalConstructorFromPeriod.test_interval_constructor_from_pd_period_OOB`. -/
example : passes (do
    let (x1, x2) ← Timeboard.new (L := V) { freq := (⟨none, .D, by decide⟩ : Freq), start := (ts 2016 12 31), stop := (ts 2017 1 12), layout := .pattern (.list [(.i 0), (.i 1), (.i 0)]), selector := V.truthy, defaultLabel := V.none } (noHeap : Heap V)
    let x3 ← x1.getInterval (some (.period (Period.ofTime (⟨none, .W none, by decide⟩ : Freq) (ts 2017 1 10 15)))) none none true "11" none
    check 505 (decide ((x3.lo, x3.hi) = (9, 12)))
    raises 506 [.partialOutOfBounds] (do
      let x4 ← x1.getInterval (some (.period (Period.ofTime (⟨none, .W none, by decide⟩ : Freq) (ts 2017 1 10 15)))) none none false "11" none
      pure ())
    let x5 ← x1.getInterval (some (.period (Period.ofTime (⟨none, .W none, by decide⟩ : Freq) (ts 2017 1 1 15)))) none none true "11" none
    check 511 (decide ((x5.lo, x5.hi) = (0, 1)))
    raises 512 [.partialOutOfBounds] (do
      let x6 ← x1.getInterval (some (.period (Period.ofTime (⟨none, .W none, by decide⟩ : Freq) (ts 2017 1 1 15)))) none none false "11" none
      pure ())
    let x7 ← x1.getInterval (some (.period (Period.ofTime (⟨none, .A (some 2), by decide⟩ : Freq) (ts 2017 3 8 15)))) none none true "11" none
    check 517 (decide ((x7.lo, x7.hi) = (0, 12)))
    raises 518 [.partialOutOfBounds] (do
      let x8 ← x1.getInterval (some (.period (Period.ofTime (⟨none, .A (some 2), by decide⟩ : Freq) (ts 2017 3 8 15)))) none none false "11" none
      pure ())
    raises 522 [.outOfBounds] (do
      let x9 ← x1.getInterval (some (.period (Period.ofTime (⟨none, .W none, by decide⟩ : Freq) (ts 2017 1 25 15)))) none none true "11" none
      pure ())
    pure ()) = true := by decide +kernel

/-- timeboard/tests/test_intervals.py 525: `TestIntervalConstructorFromPeriod.test_interval_constructor_period_smaller_than_bu`. -/
example : passes (do
    let (x1, x2) ← Timeboard.new (L := V) { freq := (⟨none, .H, by decide⟩ : Freq), start := (ts 2017 10 4), stop := (ts 2017 10 4 23 59), layout := .pattern (.list [(.i 0), (.i 1)]), selector := V.truthy, defaultLabel := V.none } (noHeap : Heap V)
    let (x3, x4) ← Timeboard.new (L := V) { freq := (⟨none, .H, by decide⟩ : Freq), start := (ts 2017 10 4), stop := (ts 2017 10 4 23 59), layout := .pattern (.list [(.i 0), (.i 1)]), selector := V.truthy, defaultLabel := V.none, refEnd := true } x2
    raises 536 [.voidInterval] (do
      let x5 ← x1.getInterval (some (.point (ts 2017 10 4 1 15))) none (some (⟨none, .T, by decide⟩ : Freq)) true "11" none
      pure ())
    raises 538 [.voidInterval] (do
      let x6 ← x3.getInterval (some (.point (ts 2017 10 4 1 15))) none (some (⟨none, .T, by decide⟩ : Freq)) true "11" none
      pure ())
    let x7 ← x1.getInterval (some (.point (ts 2017 10 4 1))) none (some (⟨none, .T, by decide⟩ : Freq)) true "11" none
    check 543 (decide ((x7.lo, x7.hi) = (1, 1)))
    raises 545 [.voidInterval] (do
      let x8 ← x1.getInterval (some (.point (ts 2017 10 4 1 59))) none (some (⟨none, .T, by decide⟩ : Freq)) true "11" none
      pure ())
    raises 549 [.voidInterval] (do
      let x9 ← x3.getInterval (some (.point (ts 2017 10 4 1))) none (some (⟨none, .T, by decide⟩ : Freq)) true "11" none
      pure ())
    let x10 ← x3.getInterval (some (.point (ts 2017 10 4 1 59))) none (some (⟨none, .T, by decide⟩ : Freq)) true "11" none
    check 552 (decide ((x10.lo, x10.hi) = (1, 1)))
    pure ()) = true := by decide +kernel

/- timeboard/tests/test_intervals.py 555: `TestIntervalConstructorFromPeriod.test_interval_constructor_period_straddles_2_ws`. -/
#guard passes (do
    let (x1, x2) ← Timeboard.new (L := V) { freq := (⟨none, .T, by decide⟩ : Freq), start := (ts 2017 10 4), stop := (ts 2017 10 4 23 59), layout := .organizer (.marker { each := (⟨some 90, .T, by decide⟩ : Freq), ats := [] }) [.label (.i 0), .label (.i 1), .label (.i 0), .label (.i 2)], selector := V.truthy, defaultLabel := V.none } (noHeap : Heap V)
    let x3 ← x1.getInterval (some (.point (ts 2017 10 4 1))) none (some (⟨none, .H, by decide⟩ : Freq)) true "11" none
    check 564 (decide ((x3.lo, x3.hi) = (1, 1)))
    pure ())

/- timeboard/tests/test_intervals.py 566: `TestIntervalConstructorFromPeriod.test_interval_constructor_period_start_aligned_end_inside_ws`. -/
#guard passes (do
    let (x1, x2) ← Timeboard.new (L := V) { freq := (⟨none, .T, by decide⟩ : Freq), start := (ts 2017 10 4), stop := (ts 2017 10 4 23 59), layout := .organizer (.marker { each := (⟨some 90, .T, by decide⟩ : Freq), ats := [] }) [.label (.i 0), .label (.i 1), .label (.i 0), .label (.i 2)], selector := V.truthy, defaultLabel := V.none } (noHeap : Heap V)
    let x3 ← x1.getInterval (some (.point (ts 2017 10 4))) none (some (⟨none, .H, by decide⟩ : Freq)) true "11" none
    check 575 (decide ((x3.lo, x3.hi) = (0, 0)))
    let (x4, x5) ← Timeboard.new (L := V) { freq := (⟨none, .T, by decide⟩ : Freq), start := (ts 2017 10 4), stop := (ts 2017 10 4 23 59), layout := .organizer (.marker { each := (⟨some 90, .T, by decide⟩ : Freq), ats := [] }) [.label (.i 0), .label (.i 1), .label (.i 0), .label (.i 2)], selector := V.truthy, defaultLabel := V.none, refEnd := true } x2
    raises 583 [.voidInterval] (do
      let x6 ← x4.getInterval (some (.point (ts 2017 10 4))) none (some (⟨none, .H, by decide⟩ : Freq)) true "11" none
      pure ())
    pure ())

/- timeboard/tests/test_intervals.py 587: `TestIntervalConstructorFromPeriod.test_interval_constructor_period_begin_inside_ws_end_aligned`. -/
#guard passes (do
    let (x1, x2) ← Timeboard.new (L := V) { freq := (⟨none, .T, by decide⟩ : Freq), start := (ts 2017 10 4), stop := (ts 2017 10 4 23 59), layout := .organizer (.marker { each := (⟨some 90, .T, by decide⟩ : Freq), ats := [] }) [.label (.i 0), .label (.i 1), .label (.i 0), .label (.i 2)], selector := V.truthy, defaultLabel := V.none } (noHeap : Heap V)
    raises 595 [.voidInterval] (do
      let x3 ← x1.getInterval (some (.point (ts 2017 10 4 2))) none (some (⟨none, .H, by decide⟩ : Freq)) true "11" none
      pure ())
    let (x4, x5) ← Timeboard.new (L := V) { freq := (⟨none, .T, by decide⟩ : Freq), start := (ts 2017 10 4), stop := (ts 2017 10 4 23 59), layout := .organizer (.marker { each := (⟨some 90, .T, by decide⟩ : Freq), ats := [] }) [.label (.i 0), .label (.i 1), .label (.i 0), .label (.i 2)], selector := V.truthy, defaultLabel := V.none, refEnd := true } x2
    let x6 ← x4.getInterval (some (.point (ts 2017 10 4 2))) none (some (⟨none, .H, by decide⟩ : Freq)) true "11" none
    check 606 (decide ((x6.lo, x6.hi) = (1, 1)))
    pure ())

/- timeboard/tests/test_intervals.py 608: `TestIntervalConstructorFromPeriod.test_interval_constructor_period_entirely_inside_ws`. -/
#guard passes (do
    let (x1, x2) ← Timeboard.new (L := V) { freq := (⟨none, .T, by decide⟩ : Freq), start := (ts 2017 10 4), stop := (ts 2017 10 4 23 59), layout := .organizer (.marker { each := (⟨some 3, .H, by decide⟩ : Freq), ats := [] }) [.label (.i 0), .label (.i 1), .label (.i 0), .label (.i 2)], selector := V.truthy, defaultLabel := V.none } (noHeap : Heap V)
    raises 618 [.voidInterval] (do
      let x3 ← x1.getInterval (some (.point (ts 2017 10 4 4))) none (some (⟨none, .H, by decide⟩ : Freq)) true "11" none
      pure ())
    let (x4, x5) ← Timeboard.new (L := V) { freq := (⟨none, .T, by decide⟩ : Freq), start := (ts 2017 10 4), stop := (ts 2017 10 4 23 59), layout := .organizer (.marker { each := (⟨some 3, .H, by decide⟩ : Freq), ats := [] }) [.label (.i 0), .label (.i 1), .label (.i 0), .label (.i 2)], selector := V.truthy, defaultLabel := V.none, refEnd := true } x2
    raises 626 [.voidInterval] (do
      let x6 ← x4.getInterval (some (.point (ts 2017 10 4 4))) none (some (⟨none, .H, by decide⟩ : Freq)) true "11" none
      pure ())
    pure ())

/-- timeboard/tests/test_intervals.py 635: `TestIntervalConstructorWithLength.test_interval_constructor_with_length`. -/
example : passes (do
    let (x1, x2) ← Timeboard.new (L := V) { freq := (⟨none, .D, by decide⟩ : Freq), start := (ts 2016 12 31), stop := (ts 2017 1 12), layout := .pattern (.list [(.i 0), (.i 1), (.i 0)]), selector := V.truthy, defaultLabel := V.none } (noHeap : Heap V)
    let x3 ← x1.getInterval (some (.point (ts 2017 1 2 15))) (some 7) none true "11" none
    let x4 ← x3.startTime x1
    let x5 ← notNaT x4
    check 638 (decide (x5 = (ts 2017 1 2)))
    let x6 ← x3.endTime x1
    let x7 ← notNaT x6
    check 639 (decide (x7 > (ts 2017 1 8 23 59 59)))
    let x8 ← x3.endTime x1
    let x9 ← notNaT x8
    check 640 (decide (x9 < (ts 2017 1 9)))
    check 641 (decide ((x3.lo, x3.hi) = (2, 8)))
    check 642 (decide (x3.len = 7))
    let x10 ← x1.callN (some (.point (ts 2017 1 2 15))) (some 7) none true "11" none
    let x11 ← asIvl x10
    check 645 (decide ((x11.lo, x11.hi) = (x3.lo, x3.hi)))
    pure ()) = true := by decide +kernel

/-- timeboard/tests/test_intervals.py 647: `TestIntervalConstructorWithLength.test_interval_constructor_with_negative_length`. -/
example : passes (do
    let (x1, x2) ← Timeboard.new (L := V) { freq := (⟨none, .D, by decide⟩ : Freq), start := (ts 2016 12 31), stop := (ts 2017 1 12), layout := .pattern (.list [(.i 0), (.i 1), (.i 0)]), selector := V.truthy, defaultLabel := V.none } (noHeap : Heap V)
    let x3 ← x1.getInterval (some (.point (ts 2017 1 8 15))) (some (-7)) none true "11" none
    let x4 ← x3.startTime x1
    let x5 ← notNaT x4
    check 650 (decide (x5 = (ts 2017 1 2)))
    let x6 ← x3.endTime x1
    let x7 ← notNaT x6
    check 651 (decide (x7 > (ts 2017 1 8 23 59 59)))
    let x8 ← x3.endTime x1
    let x9 ← notNaT x8
    check 652 (decide (x9 < (ts 2017 1 9)))
    check 653 (decide ((x3.lo, x3.hi) = (2, 8)))
    check 654 (decide (x3.len = 7))
    pure ()) = true := by decide +kernel

/-- timeboard/tests/test_intervals.py 656: `TestIntervalConstructorWithLength.test_interval_constructor_with_length_one`. -/
example : passes (do
    let (x1, x2) ← Timeboard.new (L := V) { freq := (⟨none, .D, by decide⟩ : Freq), start := (ts 2016 12 31), stop := (ts 2017 1 12), layout := .pattern (.list [(.i 0), (.i 1), (.i 0)]), selector := V.truthy, defaultLabel := V.none } (noHeap : Heap V)
    let x3 ← x1.getInterval (some (.point (ts 2017 1 2 15))) (some 1) none true "11" none
    check 659 (decide ((x3.lo, x3.hi) = (2, 2)))
    check 660 (decide (x3.len = 1))
    let x4 ← x1.getInterval (some (.point (ts 2017 1 2 15))) (some (-1)) none true "11" none
    check 662 (decide ((x4.lo, x4.hi) = (2, 2)))
    check 663 (decide (x4.len = 1))
    pure ()) = true := by decide +kernel

/-- timeboard/tests/test_intervals.py 665: `TestIntervalConstructorWithLength.test_interval_constructor_with_zero_length`. -/
example : passes (do
    let (x1, x2) ← Timeboard.new (L := V) { freq := (⟨none, .D, by decide⟩ : Freq), start := (ts 2016 12 31), stop := (ts 2017 1 12), layout := .pattern (.list [(.i 0), (.i 1), (.i 0)]), selector := V.truthy, defaultLabel := V.none } (noHeap : Heap V)
    raises 668 [.voidInterval] (do
      let x3 ← x1.getInterval (some (.point (ts 2017 1 8 15))) (some 0) none true "11" none
      pure ())
    raises 670 [.voidInterval] (do
      let x4 ← x1.callN (some (.point (ts 2017 1 8 15))) (some 0) none true "11" none
      let x5 ← asIvl x4
      pure ())
    pure ()) = true := by decide +kernel

/-- timeboard/tests/test_intervals.py 673: `TestIntervalConstructorWithLength.test_interval_constructor_with_length_OOB`. -/
example : passes (do
    let (x1, x2) ← Timeboard.new (L := V) { freq := (⟨none, .D, by decide⟩ : Freq), start := (ts 2016 12 31), stop := (ts 2017 1 12), layout := .pattern (.list [(.i 0), (.i 1), (.i 0)]), selector := V.truthy, defaultLabel := V.none } (noHeap : Heap V)
    raises 682 [.partialOutOfBounds] (do
      let x3 ← x1.getInterval (some (.point (ts 2017 1 2 15))) (some 20) none true "11" none
      pure ())
    raises 684 [.partialOutOfBounds] (do
      let x4 ← x1.callN (some (.point (ts 2017 1 2 15))) (some 20) none true "11" none
      let x5 ← asIvl x4
      pure ())
    raises 689 [.outOfBounds] (do
      let x6 ← x1.getInterval (some (.point (ts 2016 12 30 15))) (some 10) none true "11" none
      pure ())
    raises 692 [.outOfBounds] (do
      let x7 ← x1.getInterval (some (.point (ts 2016 12 30 15))) (some 20) none true "11" none
      pure ())
    raises 695 [.outOfBounds] (do
      let x8 ← x1.getInterval (some (.point (ts 2017 1 20 15))) (some 10) none true "11" none
      pure ())
    pure ()) = true := by decide +kernel

/-- timeboard/tests/test_intervals.py 712: `TestIntervalConstructorBadArgs.test_interval_constructor_bad_arg_combinations`. Left out (arguments which the model cannot express): lines 718, 722, 726, 728, 730. -/
example : passes (do
    let (x1, x2) ← Timeboard.new (L := V) { freq := (⟨none, .D, by decide⟩ : Freq), start := (ts 2016 12 31), stop := (ts 2017 1 12), layout := .pattern (.list [(.i 0), (.i 1), (.i 0)]), selector := V.truthy, defaultLabel := V.none } (noHeap : Heap V)
    raises 714 [.typeError] (do
      let x3 ← x1.getInterval (some (.point (ts 2017 1 1))) none none true "11" none
      pure ())
    raises 716 [.typeError] (do
      let x4 ← x1.getInterval (some .short) none none true "11" none
      pure ())
    raises 720 [.typeError] (do
      let x5 ← x1.getInterval (some .short) (some 1) none true "11" none
      pure ())
    raises 724 [.typeError] (do
      let x6 ← x1.getInterval (some .short) none (some (⟨none, .W none, by decide⟩ : Freq)) true "11" none
      pure ())
    raises 732 [.typeError] (do
      let x7 ← x1.getInterval none (some 1) (some (⟨none, .W none, by decide⟩ : Freq)) true "11" none
      pure ())
    pure ()) = true := by decide +kernel

/-- timeboard/tests/test_intervals.py 735: `TestIntervalConstructorBadArgs.test_interval_constructor_bad_arg_combinations_2`. Left out (arguments which the model cannot express): lines 739, 743, 747, 749, 751. -/
example : passes (do
    let (x1, x2) ← Timeboard.new (L := V) { freq := (⟨none, .D, by decide⟩ : Freq), start := (ts 2016 12 31), stop := (ts 2017 1 12), layout := .pattern (.list [(.i 0), (.i 1), (.i 0)]), selector := V.truthy, defaultLabel := V.none } (noHeap : Heap V)
    raises 737 [.typeError] (do
      let x3 ← x1.call1 .short
      let x4 ← asIvl x3
      pure ())
    raises 741 [.typeError] (do
      let x5 ← x1.callN (some .short) (some 1) none true "11" none
      let x6 ← asIvl x5
      pure ())
    raises 745 [.typeError] (do
      let x7 ← x1.callN (some .short) none (some (⟨none, .W none, by decide⟩ : Freq)) true "11" none
      let x8 ← asIvl x7
      pure ())
    raises 753 [.typeError] (do
      let x9 ← x1.callN none (some 1) (some (⟨none, .W none, by decide⟩ : Freq)) true "11" none
      let x10 ← asIvl x9
      pure ())
    pure ()) = true := by decide +kernel

/-- timeboard/tests/test_intervals.py 759: `TestIntervalConstructorDirect.test_interval_direct_with_locs`. -/
example : passes (do
    let (x1, x2) ← Timeboard.new (L := V) { freq := (⟨none, .D, by decide⟩ : Freq), start := (ts 2016 12 31), stop := (ts 2017 1 12), layout := .pattern (.list [(.i 0), (.i 1), (.i 0)]), selector := V.truthy, defaultLabel := V.none } (noHeap : Heap V)
    let x3 ← Interval.new x1 (2, 8) (some x1.defaultSchedule)
    let x4 ← x3.startTime x1
    let x5 ← notNaT x4
    check 762 (decide (x5 = (ts 2017 1 2)))
    let x6 ← x3.endTime x1
    let x7 ← notNaT x6
    check 763 (decide (x7 > (ts 2017 1 8 23 59 59)))
    let x8 ← x3.endTime x1
    let x9 ← notNaT x8
    check 764 (decide (x9 < (ts 2017 1 9)))
    check 765 (decide ((x3.lo, x3.hi) = (2, 8)))
    check 766 (decide (x3.len = 7))
    pure ()) = true := by decide +kernel

/-- timeboard/tests/test_intervals.py 768: `TestIntervalConstructorDirect.test_interval_direct_with_ws`. -/
example : passes (do
    let (x1, x2) ← Timeboard.new (L := V) { freq := (⟨none, .D, by decide⟩ : Freq), start := (ts 2016 12 31), stop := (ts 2017 1 12), layout := .pattern (.list [(.i 0), (.i 1), (.i 0)]), selector := V.truthy, defaultLabel := V.none } (noHeap : Heap V)
    let x3 ← Workshift.new x1 2 none
    let x4 ← Workshift.new x1 8 none
    let x5 ← Interval.new x1 (x3.loc, x4.loc) (some x1.defaultSchedule)
    let x6 ← x5.startTime x1
    let x7 ← notNaT x6
    check 773 (decide (x7 = (ts 2017 1 2)))
    let x8 ← x5.endTime x1
    let x9 ← notNaT x8
    check 774 (decide (x9 > (ts 2017 1 8 23 59 59)))
    let x10 ← x5.endTime x1
    let x11 ← notNaT x10
    check 775 (decide (x11 < (ts 2017 1 9)))
    check 776 (decide ((x5.lo, x5.hi) = (2, 8)))
    check 777 (decide (x5.len = 7))
    pure ()) = true := by decide +kernel

/-- timeboard/tests/test_intervals.py 779: `TestIntervalConstructorDirect.test_interval_direct_schedules`. -/
example : passes (do
    let (x1, x2) ← Timeboard.new (L := V) { freq := (⟨none, .D, by decide⟩ : Freq), start := (ts 2016 12 31), stop := (ts 2017 1 12), layout := .pattern (.list [(.i 0), (.i 1), (.i 0)]), selector := V.truthy, defaultLabel := V.none } (noHeap : Heap V)
    let (x3, x4) ← x1.addSchedule "my_schedule" (fun _ => true)
    let x5 ← Interval.new x4 (2, 8) none
    check 783 (decide (x5.schedule.name = x4.defaultSchedule.name))
    let x6 ← Interval.new x4 (2, 8) (some x3)
    check 785 (decide (x6.schedule.name = "my_schedule"))
    pure ()) = true := by decide +kernel

/-- timeboard/tests/test_intervals.py 788: `TestIntervalConstructorDirect.test_interval_direct_mixed_args`. -/
example : passes (do
    let (x1, x2) ← Timeboard.new (L := V) { freq := (⟨none, .D, by decide⟩ : Freq), start := (ts 2016 12 31), stop := (ts 2017 1 12), layout := .pattern (.list [(.i 0), (.i 1), (.i 0)]), selector := V.truthy, defaultLabel := V.none } (noHeap : Heap V)
    let x3 ← x1.call1 (.point (ts 2017 1 8))
    let x4 ← asWs x3
    let x5 ← Interval.new x1 (2, x4.loc) (some x1.defaultSchedule)
    let x6 ← x5.startTime x1
    let x7 ← notNaT x6
    check 792 (decide (x7 = (ts 2017 1 2)))
    let x8 ← x5.endTime x1
    let x9 ← notNaT x8
    check 793 (decide (x9 > (ts 2017 1 8 23 59 59)))
    let x10 ← x5.endTime x1
    let x11 ← notNaT x10
    check 794 (decide (x11 < (ts 2017 1 9)))
    check 795 (decide ((x5.lo, x5.hi) = (2, 8)))
    check 796 (decide (x5.len = 7))
    pure ()) = true := by decide +kernel

/-- timeboard/tests/test_intervals.py 798: `TestIntervalConstructorDirect.test_interval_direct_same_locs`. -/
example : passes (do
    let (x1, x2) ← Timeboard.new (L := V) { freq := (⟨none, .D, by decide⟩ : Freq), start := (ts 2016 12 31), stop := (ts 2017 1 12), layout := .pattern (.list [(.i 0), (.i 1), (.i 0)]), selector := V.truthy, defaultLabel := V.none } (noHeap : Heap V)
    let x3 ← Interval.new x1 (2, 2) (some x1.defaultSchedule)
    let x4 ← x3.startTime x1
    let x5 ← notNaT x4
    check 801 (decide (x5 = (ts 2017 1 2)))
    let x6 ← x3.endTime x1
    let x7 ← notNaT x6
    check 802 (decide (x7 > (ts 2017 1 2 23 59 59)))
    let x8 ← x3.endTime x1
    let x9 ← notNaT x8
    check 803 (decide (x9 < (ts 2017 1 3)))
    check 804 (decide ((x3.lo, x3.hi) = (2, 2)))
    check 805 (decide (x3.len = 1))
    pure ()) = true := by decide +kernel

/-- timeboard/tests/test_intervals.py 807: `TestIntervalConstructorDirect.test_interval_direct_reverse_locs`. -/
example : passes (do
    let (x1, x2) ← Timeboard.new (L := V) { freq := (⟨none, .D, by decide⟩ : Freq), start := (ts 2016 12 31), stop := (ts 2017 1 12), layout := .pattern (.list [(.i 0), (.i 1), (.i 0)]), selector := V.truthy, defaultLabel := V.none } (noHeap : Heap V)
    raises 809 [.voidInterval] (do
      let x3 ← Interval.new x1 (8, 2) (some x1.defaultSchedule)
      pure ())
    pure ()) = true := by decide +kernel

/-- timeboard/tests/test_intervals.py 812: `TestIntervalConstructorDirect.test_interval_direct_OOB_locs`. -/
example : passes (do
    let (x1, x2) ← Timeboard.new (L := V) { freq := (⟨none, .D, by decide⟩ : Freq), start := (ts 2016 12 31), stop := (ts 2017 1 12), layout := .pattern (.list [(.i 0), (.i 1), (.i 0)]), selector := V.truthy, defaultLabel := V.none } (noHeap : Heap V)
    raises 814 [.outOfBounds] (do
      let x3 ← Interval.new x1 ((-1), 2) (some x1.defaultSchedule)
      pure ())
    raises 816 [.outOfBounds] (do
      let x4 ← Interval.new x1 (8, 13) (some x1.defaultSchedule)
      pure ())
    raises 818 [.outOfBounds] (do
      let x5 ← Interval.new x1 ((-1), 13) (some x1.defaultSchedule)
      pure ())
    raises 820 [.outOfBounds] (do
      let x6 ← Interval.new x1 (13, 25) (some x1.defaultSchedule)
      pure ())
    pure ()) = true := by decide +kernel

/-- timeboard/tests/test_intervals.py 842: `TestIntervalIteration.test_ivl_as_generator`. -/
example : passes (do
    let (x1, x2) ← Timeboard.new (L := V) { freq := (⟨none, .D, by decide⟩ : Freq), start := (ts 2016 12 31), stop := (ts 2017 1 12), layout := .pattern (.list [(.i 0), (.i 1), (.i 0)]), selector := V.truthy, defaultLabel := V.none } (noHeap : Heap V)
    let x3 ← Interval.new x1 (1, 4) none
    let x4 ← x3.iter x1
    check 850 (decide ((x4.map (fun w => w.loc)) = [1, 2, 3, 4]))
    check 851 ((x4.map (fun w => decide (w.schedule.name = x1.defaultSchedule.name))).all id)
    pure ()) = true := by decide +kernel

/-- timeboard/tests/test_intervals.py 853: `TestIntervalIteration.test_ivl_as_generator_change_schedule`. -/
example : passes (do
    let (x1, x2) ← Timeboard.new (L := V) { freq := (⟨none, .D, by decide⟩ : Freq), start := (ts 2016 12 31), stop := (ts 2017 1 12), layout := .pattern (.list [(.i 0), (.i 1), (.i 0)]), selector := V.truthy, defaultLabel := V.none } (noHeap : Heap V)
    let (x3, x4) ← x1.addSchedule "my_schedule" (fun x => x.gt (1 : Rat))
    let x5 ← Interval.new x4 (1, 4) (some x3)
    let x6 ← x5.iter x4
    check 862 (decide ((x6.map (fun w => w.loc)) = [1, 2, 3, 4]))
    check 863 ((x6.map (fun w => decide (w.schedule.name = x3.name))).all id)
    pure ()) = true := by decide +kernel

/-- timeboard/tests/test_intervals.py 865: `TestIntervalIteration.test_ivl_workshift_generator`. -/
example : passes (do
    let (x1, x2) ← Timeboard.new (L := V) { freq := (⟨none, .D, by decide⟩ : Freq), start := (ts 2016 12 31), stop := (ts 2017 1 12), layout := .pattern (.list [(.i 0), (.i 1), (.i 0)]), selector := V.truthy, defaultLabel := V.none } (noHeap : Heap V)
    let x3 ← Interval.new x1 (1, 4) none
    let x4 ← x3.workshifts x1 .on none
    check 872 (decide ((x4.map (fun w => w.loc)) = [1, 4]))
    let x5 ← x3.workshifts x1 .off none
    check 877 (decide ((x5.map (fun w => w.loc)) = [2, 3]))
    let x6 ← x3.workshifts x1 .any none
    check 882 (decide ((x6.map (fun w => w.loc)) = [1, 2, 3, 4]))
    pure ()) = true := by decide +kernel

/-- timeboard/tests/test_intervals.py 884: `TestIntervalIteration.test_ivl_workshift_generator_no_such_duty`. -/
example : passes (do
    let (x1, x2) ← Timeboard.new (L := V) { freq := (⟨none, .D, by decide⟩ : Freq), start := (ts 2016 12 31), stop := (ts 2017 1 12), layout := .pattern (.list [(.i 0), (.i 1), (.i 0)]), selector := V.truthy, defaultLabel := V.none } (noHeap : Heap V)
    let x3 ← Interval.new x1 (2, 3) none
    let x4 ← x3.workshifts x1 .on none
    check 887 (x4.isEmpty)
    let (x5, x6) ← x1.addSchedule "all_on" (fun _ => true)
    let x7 ← Interval.new x6 (2, 3) (some x5)
    let x8 ← x7.workshifts x6 .off none
    check 890 (x8.isEmpty)
    pure ()) = true := by decide +kernel

/-- timeboard/tests/test_intervals.py 892: `TestIntervalIteration.test_workshift_generator_change_schedule`. -/
example : passes (do
    let (x1, x2) ← Timeboard.new (L := V) { freq := (⟨none, .D, by decide⟩ : Freq), start := (ts 2016 12 31), stop := (ts 2017 1 12), layout := .pattern (.list [(.i 0), (.i 1), (.i 0)]), selector := V.truthy, defaultLabel := V.none } (noHeap : Heap V)
    let (x3, x4) ← x1.addSchedule "all_on" (fun _ => true)
    let x5 ← Interval.new x4 (1, 4) none
    let x6 ← x5.workshifts x4 .on none
    check 901 (decide ((x6.map (fun w => w.loc)) = [1, 4]))
    check 902 ((x6.map (fun w => decide (w.schedule.name = x4.defaultSchedule.name))).all id)
    let x7 ← x5.workshifts x4 .on (some x3)
    check 909 (decide ((x7.map (fun w => w.loc)) = [1, 2, 3, 4]))
    check 910 ((x7.map (fun w => decide (w.schedule.name = x3.name))).all id)
    pure ()) = true := by decide +kernel

/-- timeboard/tests/test_intervals.py 915: `TestIntervalToDataFrame.test_ivl_to_dataframe`. -/
example : passes (do
    let (x1, x2) ← Timeboard.new (L := V) { freq := (⟨none, .D, by decide⟩ : Freq), start := (ts 2016 12 31), stop := (ts 2017 1 12), layout := .pattern (.list [(.i 0), (.i 1), (.i 0)]), selector := V.truthy, defaultLabel := V.none } (noHeap : Heap V)
    let (x3, x4) ← x1.addSchedule "my_schedule" (fun _ => true)
    let x5 ← Interval.new x4 (2, 8) none
    let x6 ← x4.toDataframe (some 2) (some 8)
    let x7 ← x5.toDataframe x4
    check 921 ((decide ((x7.length : Int) = x5.len)) && (decide (x5.len = (x6.length : Int))))
    check 922 (decide (((x7.map (fun r => r.columns.map Prod.fst)).headD []) = ((x6.map (fun r => r.columns.map Prod.fst)).headD [])))
    check 923 (((x7.map (fun r => r.columns.map Prod.fst)).headD []).contains "my_schedule")
    pure ()) = true := by decide +kernel

/-- timeboard/tests/test_intervals.py 928: `TestVoidInterval.test_void_interval_with_locs`. -/
example : passes (do
    let (x1, x2) ← Timeboard.new (L := V) { freq := (⟨none, .D, by decide⟩ : Freq), start := (ts 2016 12 31), stop := (ts 2017 1 12), layout := .pattern (.list [(.i 0), (.i 1), (.i 0)]), selector := V.truthy, defaultLabel := V.none } (noHeap : Heap V)
    let x3 ← Interval.newVoid x1 (8, 2) (some x1.defaultSchedule)
    let x4 ← x3.startTime x1
    check 931 (x4.isNone)
    let x5 ← x3.endTime x1
    check 932 (x5.isNone)
    check 933 (decide ((x3.lo, x3.hi) = (8, 2)))
    check 934 (decide (x3.len = 0))
    pure ()) = true := by decide +kernel

/-- timeboard/tests/test_intervals.py 936: `TestVoidInterval.test_void_interval_with_ws`. -/
example : passes (do
    let (x1, x2) ← Timeboard.new (L := V) { freq := (⟨none, .D, by decide⟩ : Freq), start := (ts 2016 12 31), stop := (ts 2017 1 12), layout := .pattern (.list [(.i 0), (.i 1), (.i 0)]), selector := V.truthy, defaultLabel := V.none } (noHeap : Heap V)
    let x3 ← Workshift.new x1 8 none
    let x4 ← Workshift.new x1 2 none
    let x5 ← Interval.newVoid x1 (x3.loc, x4.loc) (some x1.defaultSchedule)
    let x6 ← x5.startTime x1
    check 941 (x6.isNone)
    let x7 ← x5.endTime x1
    check 942 (x7.isNone)
    check 943 (decide ((x5.lo, x5.hi) = (8, 2)))
    check 944 (decide (x5.len = 0))
    pure ()) = true := by decide +kernel

/-- timeboard/tests/test_intervals.py 946: `TestVoidInterval.test_void_interval_mixed_args`. -/
example : passes (do
    let (x1, x2) ← Timeboard.new (L := V) { freq := (⟨none, .D, by decide⟩ : Freq), start := (ts 2016 12 31), stop := (ts 2017 1 12), layout := .pattern (.list [(.i 0), (.i 1), (.i 0)]), selector := V.truthy, defaultLabel := V.none } (noHeap : Heap V)
    let x3 ← Workshift.new x1 8 none
    let x4 ← Interval.newVoid x1 (x3.loc, 2) (some x1.defaultSchedule)
    let x5 ← x4.startTime x1
    check 950 (x5.isNone)
    let x6 ← x4.endTime x1
    check 951 (x6.isNone)
    check 952 (decide ((x4.lo, x4.hi) = (8, 2)))
    check 953 (decide (x4.len = 0))
    pure ()) = true := by decide +kernel

/-- timeboard/tests/test_intervals.py 955: `TestVoidInterval.test_void_interval_schedules`. -/
example : passes (do
    let (x1, x2) ← Timeboard.new (L := V) { freq := (⟨none, .D, by decide⟩ : Freq), start := (ts 2016 12 31), stop := (ts 2017 1 12), layout := .pattern (.list [(.i 0), (.i 1), (.i 0)]), selector := V.truthy, defaultLabel := V.none } (noHeap : Heap V)
    let (x3, x4) ← x1.addSchedule "my_schedule" (fun _ => true)
    let x5 ← Interval.newVoid x4 (8, 2) none
    check 959 (decide (x5.schedule.name = x4.defaultSchedule.name))
    let x6 ← Interval.newVoid x4 (8, 2) (some x3)
    check 961 (decide (x6.schedule.name = "my_schedule"))
    pure ()) = true := by decide +kernel

/-- timeboard/tests/test_intervals.py 963: `TestVoidInterval.test_void_interval_fails_with_normal_locs`. -/
example : passes (do
    let (x1, x2) ← Timeboard.new (L := V) { freq := (⟨none, .D, by decide⟩ : Freq), start := (ts 2016 12 31), stop := (ts 2017 1 12), layout := .pattern (.list [(.i 0), (.i 1), (.i 0)]), selector := V.truthy, defaultLabel := V.none } (noHeap : Heap V)
    raises 965 [.voidInterval] (do
      let x3 ← Interval.newVoid x1 (2, 8) (some x1.defaultSchedule)
      pure ())
    pure ()) = true := by decide +kernel

/-- timeboard/tests/test_intervals.py 968: `TestVoidInterval.test_voic_interval_OB_locs`. -/
example : passes (do
    let (x1, x2) ← Timeboard.new (L := V) { freq := (⟨none, .D, by decide⟩ : Freq), start := (ts 2016 12 31), stop := (ts 2017 1 12), layout := .pattern (.list [(.i 0), (.i 1), (.i 0)]), selector := V.truthy, defaultLabel := V.none } (noHeap : Heap V)
    raises 970 [.outOfBounds] (do
      let x3 ← Interval.newVoid x1 (2, (-1)) (some x1.defaultSchedule)
      pure ())
    raises 972 [.outOfBounds] (do
      let x4 ← Interval.newVoid x1 (13, 8) (some x1.defaultSchedule)
      pure ())
    raises 974 [.outOfBounds] (do
      let x5 ← Interval.newVoid x1 (13, (-1)) (some x1.defaultSchedule)
      pure ())
    raises 976 [.outOfBounds] (do
      let x6 ← Interval.newVoid x1 (25, 13) (some x1.defaultSchedule)
      pure ())
    pure ()) = true := by decide +kernel

end TB.Conf
