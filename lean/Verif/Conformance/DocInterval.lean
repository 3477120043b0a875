import Verif.Conformance.Support
/-!
# Examples of `timeboard/interval.py`

Generated by `tools/doc_examples.py`.  One example per session of the documentation: the printed results are those
of the model.  These are checks of the model on single inputs, not proofs of properties.
-/
set_option linter.unusedVariables false
set_option maxRecDepth 8192
namespace TB.Conf

/-- timeboard/interval.py 114: results at lines 116, 119, 121, 135, 145. -/
example : passes (do
    let (x1, x2) ← Timeboard.new (L := V) { freq := (⟨none, .D, by decide⟩ : Freq), start := (ts 2017 9 30), stop := (ts 2017 10 15), layout := .pattern (.list [(.i 0), (.i 1)]), selector := V.truthy, defaultLabel := V.none } (noHeap : Heap V)
    let x3 ← Interval.new x1 (2, 9) none
    check 116 (decide ((x3.lo, x3.hi) = (2, 9)))
    check 116 (decide (x3.schedule.name = "on_duty"))
    check 116 (decide (x3.len = 8))
    check 119 (decide (x3.len = 8))
    let x4 ← x3.iter x1
    check 121 (decide ((x4.length : Int) = 8))
    let x5 ← item x4 0
    let x6 ← x5.startTime x1
    check 121 (decide (x6 = (ts 2017 10 2)))
    let x7 ← item x4 0
    check 121 (decide (x7.label = (.num (0 : Rat))))
    let x8 ← item x4 1
    let x9 ← x8.startTime x1
    check 121 (decide (x9 = (ts 2017 10 3)))
    let x10 ← item x4 1
    check 121 (decide (x10.label = (.num (1 : Rat))))
    let x11 ← item x4 2
    let x12 ← x11.startTime x1
    check 121 (decide (x12 = (ts 2017 10 4)))
    let x13 ← item x4 2
    check 121 (decide (x13.label = (.num (0 : Rat))))
    let x14 ← item x4 3
    let x15 ← x14.startTime x1
    check 121 (decide (x15 = (ts 2017 10 5)))
    let x16 ← item x4 3
    check 121 (decide (x16.label = (.num (1 : Rat))))
    let x17 ← item x4 4
    let x18 ← x17.startTime x1
    check 121 (decide (x18 = (ts 2017 10 6)))
    let x19 ← item x4 4
    check 121 (decide (x19.label = (.num (0 : Rat))))
    let x20 ← item x4 5
    let x21 ← x20.startTime x1
    check 121 (decide (x21 = (ts 2017 10 7)))
    let x22 ← item x4 5
    check 121 (decide (x22.label = (.num (1 : Rat))))
    let x23 ← item x4 6
    let x24 ← x23.startTime x1
    check 121 (decide (x24 = (ts 2017 10 8)))
    let x25 ← item x4 6
    check 121 (decide (x25.label = (.num (0 : Rat))))
    let x26 ← item x4 7
    let x27 ← x26.startTime x1
    check 121 (decide (x27 = (ts 2017 10 9)))
    let x28 ← item x4 7
    check 121 (decide (x28.label = (.num (1 : Rat))))
    let x29 ← x3.iter x1
    check 135 (decide ((x29.length : Int) = 8))
    let x30 ← item x29 0
    check 135 (decide (x30.loc = 2))
    check 135 (decide (x30.schedule.name = "on_duty"))
    let x31 ← x30.duration x1
    check 135 (decide (x31 = 1))
    let x32 ← x30.startTime x1
    check 135 (decide (x32 = (ts 2017 10 2)))
    let x33 ← item x29 1
    check 135 (decide (x33.loc = 3))
    check 135 (decide (x33.schedule.name = "on_duty"))
    let x34 ← x33.duration x1
    check 135 (decide (x34 = 1))
    let x35 ← x33.startTime x1
    check 135 (decide (x35 = (ts 2017 10 3)))
    let x36 ← item x29 2
    check 135 (decide (x36.loc = 4))
    check 135 (decide (x36.schedule.name = "on_duty"))
    let x37 ← x36.duration x1
    check 135 (decide (x37 = 1))
    let x38 ← x36.startTime x1
    check 135 (decide (x38 = (ts 2017 10 4)))
    let x39 ← item x29 3
    check 135 (decide (x39.loc = 5))
    check 135 (decide (x39.schedule.name = "on_duty"))
    let x40 ← x39.duration x1
    check 135 (decide (x40 = 1))
    let x41 ← x39.startTime x1
    check 135 (decide (x41 = (ts 2017 10 5)))
    let x42 ← item x29 4
    check 135 (decide (x42.loc = 6))
    check 135 (decide (x42.schedule.name = "on_duty"))
    let x43 ← x42.duration x1
    check 135 (decide (x43 = 1))
    let x44 ← x42.startTime x1
    check 135 (decide (x44 = (ts 2017 10 6)))
    let x45 ← item x29 5
    check 135 (decide (x45.loc = 7))
    check 135 (decide (x45.schedule.name = "on_duty"))
    let x46 ← x45.duration x1
    check 135 (decide (x46 = 1))
    let x47 ← x45.startTime x1
    check 135 (decide (x47 = (ts 2017 10 7)))
    let x48 ← item x29 6
    check 135 (decide (x48.loc = 8))
    check 135 (decide (x48.schedule.name = "on_duty"))
    let x49 ← x48.duration x1
    check 135 (decide (x49 = 1))
    let x50 ← x48.startTime x1
    check 135 (decide (x50 = (ts 2017 10 8)))
    let x51 ← item x29 7
    check 135 (decide (x51.loc = 9))
    check 135 (decide (x51.schedule.name = "on_duty"))
    let x52 ← x51.duration x1
    check 135 (decide (x52 = 1))
    let x53 ← x51.startTime x1
    check 135 (decide (x53 = (ts 2017 10 9)))
    check 145 (decide ((x3.lo, x3.hi) = (2, 9)))
    check 145 (decide (x3.schedule.name = "on_duty"))
    check 145 (decide (x3.len = 8))
    let x54 ← Workshift.new x1 2 none
    let x55 ← x54.startTime x1
    check 145 (decide (x55 = (ts 2017 10 2)))
    let x56 ← x54.duration x1
    check 145 (decide (x56 = 1))
    let x57 ← x54.endTime x1
    check 145 (decide (x57 = (ts 2017 10 2 23 59 59 + 999999999)))
    check 145 (decide (x54.label = (.num (0 : Rat))))
    let x58 ← x54.isOnDuty x1 none
    check 145 (!(x58))
    let x59 ← Workshift.new x1 3 none
    let x60 ← x59.startTime x1
    check 145 (decide (x60 = (ts 2017 10 3)))
    let x61 ← x59.duration x1
    check 145 (decide (x61 = 1))
    let x62 ← x59.endTime x1
    check 145 (decide (x62 = (ts 2017 10 3 23 59 59 + 999999999)))
    check 145 (decide (x59.label = (.num (1 : Rat))))
    let x63 ← x59.isOnDuty x1 none
    check 145 (x63)
    let x64 ← Workshift.new x1 4 none
    let x65 ← x64.startTime x1
    check 145 (decide (x65 = (ts 2017 10 4)))
    let x66 ← x64.duration x1
    check 145 (decide (x66 = 1))
    let x67 ← x64.endTime x1
    check 145 (decide (x67 = (ts 2017 10 4 23 59 59 + 999999999)))
    check 145 (decide (x64.label = (.num (0 : Rat))))
    let x68 ← x64.isOnDuty x1 none
    check 145 (!(x68))
    let x69 ← Workshift.new x1 5 none
    let x70 ← x69.startTime x1
    check 145 (decide (x70 = (ts 2017 10 5)))
    let x71 ← x69.duration x1
    check 145 (decide (x71 = 1))
    let x72 ← x69.endTime x1
    check 145 (decide (x72 = (ts 2017 10 5 23 59 59 + 999999999)))
    check 145 (decide (x69.label = (.num (1 : Rat))))
    let x73 ← x69.isOnDuty x1 none
    check 145 (x73)
    let x74 ← Workshift.new x1 6 none
    let x75 ← x74.startTime x1
    check 145 (decide (x75 = (ts 2017 10 6)))
    let x76 ← x74.duration x1
    check 145 (decide (x76 = 1))
    let x77 ← x74.endTime x1
    check 145 (decide (x77 = (ts 2017 10 6 23 59 59 + 999999999)))
    check 145 (decide (x74.label = (.num (0 : Rat))))
    let x78 ← x74.isOnDuty x1 none
    check 145 (!(x78))
    let x79 ← Workshift.new x1 7 none
    let x80 ← x79.startTime x1
    check 145 (decide (x80 = (ts 2017 10 7)))
    let x81 ← x79.duration x1
    check 145 (decide (x81 = 1))
    let x82 ← x79.endTime x1
    check 145 (decide (x82 = (ts 2017 10 7 23 59 59 + 999999999)))
    check 145 (decide (x79.label = (.num (1 : Rat))))
    let x83 ← x79.isOnDuty x1 none
    check 145 (x83)
    let x84 ← Workshift.new x1 8 none
    let x85 ← x84.startTime x1
    check 145 (decide (x85 = (ts 2017 10 8)))
    let x86 ← x84.duration x1
    check 145 (decide (x86 = 1))
    let x87 ← x84.endTime x1
    check 145 (decide (x87 = (ts 2017 10 8 23 59 59 + 999999999)))
    check 145 (decide (x84.label = (.num (0 : Rat))))
    let x88 ← x84.isOnDuty x1 none
    check 145 (!(x88))
    let x89 ← Workshift.new x1 9 none
    let x90 ← x89.startTime x1
    check 145 (decide (x90 = (ts 2017 10 9)))
    let x91 ← x89.duration x1
    check 145 (decide (x91 = 1))
    let x92 ← x89.endTime x1
    check 145 (decide (x92 = (ts 2017 10 9 23 59 59 + 999999999)))
    check 145 (decide (x89.label = (.num (1 : Rat))))
    let x93 ← x89.isOnDuty x1 none
    check 145 (x93)
    pure ()) = true := by decide +kernel

/-- timeboard/interval.py 289: results at lines 291, 294, 301. -/
example : passes (do
    let (x1, x2) ← Timeboard.new (L := V) { freq := (⟨none, .D, by decide⟩ : Freq), start := (ts 2017 9 30), stop := (ts 2017 10 15), layout := .pattern (.list [(.i 0), (.i 1)]), selector := V.truthy, defaultLabel := V.none } (noHeap : Heap V)
    let x3 ← Interval.new x1 (2, 9) none
    check 291 (decide ((x3.lo, x3.hi) = (2, 9)))
    check 291 (decide (x3.schedule.name = "on_duty"))
    check 291 (decide (x3.len = 8))
    let x4 ← x3.workshifts x1 .on none
    check 294 (decide ((x4.length : Int) = 4))
    let x5 ← item x4 0
    let x6 ← x5.startTime x1
    check 294 (decide (x6 = (ts 2017 10 3)))
    let x7 ← item x4 0
    check 294 (decide (x7.label = (.i 1)))
    let x8 ← item x4 1
    let x9 ← x8.startTime x1
    check 294 (decide (x9 = (ts 2017 10 5)))
    let x10 ← item x4 1
    check 294 (decide (x10.label = (.i 1)))
    let x11 ← item x4 2
    let x12 ← x11.startTime x1
    check 294 (decide (x12 = (ts 2017 10 7)))
    let x13 ← item x4 2
    check 294 (decide (x13.label = (.i 1)))
    let x14 ← item x4 3
    let x15 ← x14.startTime x1
    check 294 (decide (x15 = (ts 2017 10 9)))
    let x16 ← item x4 3
    check 294 (decide (x16.label = (.i 1)))
    let x17 ← x3.workshifts x1 .off none
    check 301 (decide ((x17.length : Int) = 4))
    let x18 ← item x17 0
    check 301 (decide (x18.loc = 2))
    check 301 (decide (x18.schedule.name = "on_duty"))
    let x19 ← x18.duration x1
    check 301 (decide (x19 = 1))
    let x20 ← x18.startTime x1
    check 301 (decide (x20 = (ts 2017 10 2)))
    let x21 ← item x17 1
    check 301 (decide (x21.loc = 4))
    check 301 (decide (x21.schedule.name = "on_duty"))
    let x22 ← x21.duration x1
    check 301 (decide (x22 = 1))
    let x23 ← x21.startTime x1
    check 301 (decide (x23 = (ts 2017 10 4)))
    let x24 ← item x17 2
    check 301 (decide (x24.loc = 6))
    check 301 (decide (x24.schedule.name = "on_duty"))
    let x25 ← x24.duration x1
    check 301 (decide (x25 = 1))
    let x26 ← x24.startTime x1
    check 301 (decide (x26 = (ts 2017 10 6)))
    let x27 ← item x17 3
    check 301 (decide (x27.loc = 8))
    check 301 (decide (x27.schedule.name = "on_duty"))
    let x28 ← x27.duration x1
    check 301 (decide (x28 = 1))
    let x29 ← x27.startTime x1
    check 301 (decide (x29 = (ts 2017 10 8)))
    pure ()) = true := by decide +kernel

/-- timeboard/interval.py 358: results at lines 360, 362, 364, 366. -/
example : passes (do
    let (x1, x2) ← Timeboard.new (L := V) { freq := (⟨none, .D, by decide⟩ : Freq), start := (ts 2017 9 30), stop := (ts 2017 10 15), layout := .pattern (.list [(.i 0), (.i 1)]), selector := V.truthy, defaultLabel := V.none } (noHeap : Heap V)
    let x3 ← x1.call1 (.pair (some (ts 2017 10 2)) (some (ts 2017 10 8)))
    let x4 ← asIvl x3
    let x5 ← x4.nth x1 1 .on none
    check 360 (decide (x5.loc = 5))
    check 360 (decide (x5.schedule.name = "on_duty"))
    let x6 ← x5.duration x1
    check 360 (decide (x6 = 1))
    let x7 ← x5.startTime x1
    check 360 (decide (x7 = (ts 2017 10 5)))
    let x8 ← x4.nth x1 1 .off none
    check 362 (decide (x8.loc = 4))
    check 362 (decide (x8.schedule.name = "on_duty"))
    let x9 ← x8.duration x1
    check 362 (decide (x9 = 1))
    let x10 ← x8.startTime x1
    check 362 (decide (x10 = (ts 2017 10 4)))
    let x11 ← x4.nth x1 1 .any none
    check 364 (decide (x11.loc = 3))
    check 364 (decide (x11.schedule.name = "on_duty"))
    let x12 ← x11.duration x1
    check 364 (decide (x12 = 1))
    let x13 ← x11.startTime x1
    check 364 (decide (x13 = (ts 2017 10 3)))
    raises 366 [.outOfBounds] (do
      let x14 ← x4.nth x1 10 .on none
      pure ())
    pure ()) = true := by decide +kernel

/-- timeboard/interval.py 401: results at lines 403, 405, 407. -/
example : passes (do
    let (x1, x2) ← Timeboard.new (L := V) { freq := (⟨none, .D, by decide⟩ : Freq), start := (ts 2017 9 30), stop := (ts 2017 10 15), layout := .pattern (.list [(.i 0), (.i 1)]), selector := V.truthy, defaultLabel := V.none } (noHeap : Heap V)
    let x3 ← x1.call1 (.pair (some (ts 2017 10 2)) (some (ts 2017 10 8)))
    let x4 ← asIvl x3
    let x5 ← x4.first x1 .on none
    check 403 (decide (x5.loc = 3))
    check 403 (decide (x5.schedule.name = "on_duty"))
    let x6 ← x5.duration x1
    check 403 (decide (x6 = 1))
    let x7 ← x5.startTime x1
    check 403 (decide (x7 = (ts 2017 10 3)))
    let x8 ← x4.first x1 .off none
    check 405 (decide (x8.loc = 2))
    check 405 (decide (x8.schedule.name = "on_duty"))
    let x9 ← x8.duration x1
    check 405 (decide (x9 = 1))
    let x10 ← x8.startTime x1
    check 405 (decide (x10 = (ts 2017 10 2)))
    let x11 ← x4.first x1 .any none
    check 407 (decide (x11.loc = 2))
    check 407 (decide (x11.schedule.name = "on_duty"))
    let x12 ← x11.duration x1
    check 407 (decide (x12 = 1))
    let x13 ← x11.startTime x1
    check 407 (decide (x13 = (ts 2017 10 2)))
    pure ()) = true := by decide +kernel

/-- timeboard/interval.py 424: results at lines 426, 428, 430. -/
example : passes (do
    let (x1, x2) ← Timeboard.new (L := V) { freq := (⟨none, .D, by decide⟩ : Freq), start := (ts 2017 9 30), stop := (ts 2017 10 15), layout := .pattern (.list [(.i 0), (.i 1)]), selector := V.truthy, defaultLabel := V.none } (noHeap : Heap V)
    let x3 ← x1.call1 (.pair (some (ts 2017 10 2)) (some (ts 2017 10 8)))
    let x4 ← asIvl x3
    let x5 ← x4.last x1 .on none
    check 426 (decide (x5.loc = 7))
    check 426 (decide (x5.schedule.name = "on_duty"))
    let x6 ← x5.duration x1
    check 426 (decide (x6 = 1))
    let x7 ← x5.startTime x1
    check 426 (decide (x7 = (ts 2017 10 7)))
    let x8 ← x4.last x1 .off none
    check 428 (decide (x8.loc = 8))
    check 428 (decide (x8.schedule.name = "on_duty"))
    let x9 ← x8.duration x1
    check 428 (decide (x9 = 1))
    let x10 ← x8.startTime x1
    check 428 (decide (x10 = (ts 2017 10 8)))
    let x11 ← x4.last x1 .any none
    check 430 (decide (x11.loc = 8))
    check 430 (decide (x11.schedule.name = "on_duty"))
    let x12 ← x11.duration x1
    check 430 (decide (x12 = 1))
    let x13 ← x11.startTime x1
    check 430 (decide (x13 = (ts 2017 10 8)))
    pure ()) = true := by decide +kernel

/-- timeboard/interval.py 458: results at lines 460, 462, 464. -/
example : passes (do
    let (x1, x2) ← Timeboard.new (L := V) { freq := (⟨none, .D, by decide⟩ : Freq), start := (ts 2017 9 30), stop := (ts 2017 10 15), layout := .pattern (.list [(.i 0), (.i 1)]), selector := V.truthy, defaultLabel := V.none } (noHeap : Heap V)
    let x3 ← x1.call1 (.pair (some (ts 2017 10 2)) (some (ts 2017 10 8)))
    let x4 ← asIvl x3
    let x5 ← x4.count x1 .on none
    check 460 (decide (x5 = 3))
    let x6 ← x4.count x1 .off none
    check 462 (decide (x6 = 4))
    let x7 ← x4.count x1 .any none
    check 464 (decide (x7 = 7))
    pure ()) = true := by decide +kernel

/-- timeboard/interval.py 506: results at lines 509, 514, 521, 523, 525, 527, 529, 531. -/
example : passes (do
    let (x1, x2) ← Timeboard.new (L := V) { freq := (⟨none, .D, by decide⟩ : Freq), start := (ts 2017 9 30), stop := (ts 2017 10 15), layout := .pattern (.list [(.i 0), (.i 1)]), selector := V.truthy, defaultLabel := V.none } (noHeap : Heap V)
    let x3 ← Interval.new x1 (2, 9) none
    let x4 ← Interval.new x1 (8, 11) none
    let x5 ← x3.overlap x1 x4 none
    check 509 (decide ((x5.lo, x5.hi) = (8, 9)))
    check 509 (decide (x5.schedule.name = "on_duty"))
    check 509 (decide (x5.len = 2))
    let x6 ← x3.overlap x1 x4
    check 514 (decide ((x6.lo, x6.hi) = (8, 9)))
    check 514 (decide (x6.schedule.name = "on_duty"))
    check 514 (decide (x6.len = 2))
    let x7 ← Interval.new x1 (10, 11) none
    let x8 ← x3.overlap x1 x7 none
    check 521 (decide (x8.len = 0))
    check 521 (decide ((x8.lo, x8.hi) = (10, 9)))
    check 523 (decide (x8.len = 0))
    let x9 ← x8.count x1 .on none
    check 525 (decide (x9 = 0))
    let x10 ← x8.iter x1
    check 527 (decide ((x10.length : Int) = 0))
    let x11 ← x8.startTime x1
    check 529 (x11.isNone)
    raises 531 [.outOfBounds] (do
      let x12 ← x8.first x1 .any none
      pure ())
    pure ()) = true := by decide +kernel

/-- timeboard/interval.py 601: results at lines 608, 619, 627. -/
example : passes (do
    let (x1, x2) ← Timeboard.new (L := V) { freq := (⟨none, .H, by decide⟩ : Freq), start := (ts 2017 10 1), stop := (ts 2017 10 8 23 59), layout := .pattern (.list [(.i 0), (.i 1)]), selector := V.truthy, defaultLabel := V.none } (noHeap : Heap V)
    let x3 ← x1.call1 (.pair (some (ts 2017 10 1 11)) (some (ts 2017 10 2 23 59)))
    let x4 ← asIvl x3
    let x5 ← x4.countPeriods x1 (⟨none, .D, by decide⟩ : Freq) .any none
    check 608 (decide (x5 = ((37 : Rat) / 24)))
    let x6 ← x4.countPeriods x1 (⟨none, .D, by decide⟩ : Freq) .on none
    check 619 (decide (x6 = ((19 : Rat) / 12)))
    let x7 ← x4.countPeriods x1 (⟨none, .D, by decide⟩ : Freq) .off none
    check 627 (decide (x7 = ((3 : Rat) / 2)))
    pure ()) = true := by decide +kernel

/-- timeboard/interval.py 753: results at lines 764, 769, 774, 782, 788, 794, 802, 807. -/
example : passes (do
    let (x1, x2) ← Timeboard.new (L := V) { freq := (⟨none, .D, by decide⟩ : Freq), start := (ts 2017 10 2), stop := (ts 2017 10 15), layout := .pattern (.list [(.i 1), (.i 1), (.i 1), (.i 1), (.i 1), (.i 0), (.i 0)]), selector := V.truthy, defaultLabel := V.none } (noHeap : Heap V)
    let x3 ← x1.callN (some (.point (ts 2017 10 2))) none (some (⟨none, .W none, by decide⟩ : Freq)) true "11" none
    let x4 ← asIvl x3
    let x5 ← x1.call1 (.pair (some (ts 2017 10 5)) (some (ts 2017 10 7)))
    let x6 ← asIvl x5
    let x7 ← x6.whatPortionOf x1 x4 .on none
    check 764 (decide (x7 = ((2 : Rat) / 5)))
    let x8 ← x6.whatPortionOf x1 x4 .off none
    check 769 (decide (x8 = ((1 : Rat) / 2)))
    let x9 ← x6.whatPortionOf x1 x4 .any none
    check 774 (decide (x9 = ((3 : Rat) / 7)))
    let x10 ← x6.whatPortionOf x1 x4
    check 782 (decide (x10 = ((2 : Rat) / 5)))
    let x11 ← x1.callN (some (.point (ts 2017 10 9))) none (some (⟨none, .W none, by decide⟩ : Freq)) true "11" none
    let x12 ← asIvl x11
    let x13 ← x6.whatPortionOf x1 x12 .any none
    check 788 (decide (x13 = (0 : Rat)))
    let x14 ← x1.call1 (.pair (some (ts 2017 10 2)) (some (ts 2017 10 11)))
    let x15 ← asIvl x14
    let x16 ← x15.whatPortionOf x1 x4 .on none
    check 794 (decide (x16 = (1 : Rat)))
    let x17 ← x1.call1 (.pair (some (ts 2017 10 7)) (some (ts 2017 10 8)))
    let x18 ← asIvl x17
    let x19 ← x18.whatPortionOf x1 x4 .on none
    check 802 (decide (x19 = (0 : Rat)))
    let x20 ← x18.whatPortionOf x1 x4 .off none
    check 807 (decide (x20 = (1 : Rat)))
    pure ()) = true := by decide +kernel

/-- timeboard/interval.py 856: results at lines 864, 866, 868. -/
example : passes (do
    let (x1, x2) ← Timeboard.new (L := V) { freq := (⟨none, .D, by decide⟩ : Freq), start := (ts 2017 10 1), stop := (ts 2017 10 10), layout := .pattern (.list [(.i 1), (.i 2)]), selector := (fun x => x.gt (1 : Rat)), defaultLabel := V.none } (noHeap : Heap V)
    let x3 ← x1.callN none none none true "11" none
    let x4 ← asIvl x3
    let x5 ← x4.sumLabels x1 V.num? .on none
    check 864 (decide (x5 = (10 : Rat)))
    let x6 ← x4.sumLabels x1 V.num? .off none
    check 866 (decide (x6 = (5 : Rat)))
    let x7 ← x4.sumLabels x1 V.num? .any none
    check 868 (decide (x7 = (15 : Rat)))
    pure ()) = true := by decide +kernel

/-- timeboard/interval.py 906: results at lines 909, 918, 920, 922. -/
example : passes (do
    let (x1, x2) ← Timeboard.new (L := V) { freq := (⟨none, .D, by decide⟩ : Freq), start := (ts 2017 9 30), stop := (ts 2017 10 11), layout := .organizer (.marks [(ts 2017 10 3), (ts 2017 10 7), (ts 2017 10 9)]) [.label (.i 0), .label (.i 1)], selector := V.truthy, defaultLabel := V.none } (noHeap : Heap V)
    let x3 ← x1.callN none none none true "11" none
    let x4 ← asIvl x3
    check 909 (decide ((x4.lo, x4.hi) = (0, 3)))
    check 909 (decide (x4.schedule.name = "on_duty"))
    check 909 (decide (x4.len = 4))
    let x5 ← Workshift.new x1 0 none
    let x6 ← x5.toTimestamp x1
    check 909 (decide (x6 = (ts 2017 9 30)))
    let x7 ← x5.startTime x1
    check 909 (decide (x7 = (ts 2017 9 30)))
    let x8 ← x5.duration x1
    check 909 (decide (x8 = 3))
    let x9 ← x5.endTime x1
    check 909 (decide (x9 = (ts 2017 10 2 23 59 59 + 999999999)))
    check 909 (decide (x5.label = (.num (0 : Rat))))
    let x10 ← x5.isOnDuty x1 none
    check 909 (!(x10))
    let x11 ← Workshift.new x1 1 none
    let x12 ← x11.toTimestamp x1
    check 909 (decide (x12 = (ts 2017 10 3)))
    let x13 ← x11.startTime x1
    check 909 (decide (x13 = (ts 2017 10 3)))
    let x14 ← x11.duration x1
    check 909 (decide (x14 = 4))
    let x15 ← x11.endTime x1
    check 909 (decide (x15 = (ts 2017 10 6 23 59 59 + 999999999)))
    check 909 (decide (x11.label = (.num (1 : Rat))))
    let x16 ← x11.isOnDuty x1 none
    check 909 (x16)
    let x17 ← Workshift.new x1 2 none
    let x18 ← x17.toTimestamp x1
    check 909 (decide (x18 = (ts 2017 10 7)))
    let x19 ← x17.startTime x1
    check 909 (decide (x19 = (ts 2017 10 7)))
    let x20 ← x17.duration x1
    check 909 (decide (x20 = 2))
    let x21 ← x17.endTime x1
    check 909 (decide (x21 = (ts 2017 10 8 23 59 59 + 999999999)))
    check 909 (decide (x17.label = (.num (0 : Rat))))
    let x22 ← x17.isOnDuty x1 none
    check 909 (!(x22))
    let x23 ← Workshift.new x1 3 none
    let x24 ← x23.toTimestamp x1
    check 909 (decide (x24 = (ts 2017 10 9)))
    let x25 ← x23.startTime x1
    check 909 (decide (x25 = (ts 2017 10 9)))
    let x26 ← x23.duration x1
    check 909 (decide (x26 = 3))
    let x27 ← x23.endTime x1
    check 909 (decide (x27 = (ts 2017 10 11 23 59 59 + 999999999)))
    check 909 (decide (x23.label = (.num (1 : Rat))))
    let x28 ← x23.isOnDuty x1 none
    check 909 (x28)
    let x29 ← x4.totalDuration x1 .on none
    check 918 (decide (x29 = 7))
    let x30 ← x4.totalDuration x1 .off none
    check 920 (decide (x30 = 5))
    let x31 ← x4.totalDuration x1 .any none
    check 922 (decide (x31 = 12))
    pure ()) = true := by decide +kernel

/-- timeboard/interval.py 967: results at lines 971, 979, 981, 983. -/
example : passes (do
    let (x1, x2) ← Timeboard.new (L := V) { freq := (⟨none, .D, by decide⟩ : Freq), start := (ts 2017 9 30), stop := (ts 2017 10 11), layout := .pattern (.list [(.i 4), (.i 8), (.i 4), (.i 8)]), selector := (fun x => x.gt (4 : Rat)), defaultLabel := V.none } (noHeap : Heap V)
    let x3 ← Interval.new x1 (1, 3) none
    check 971 (decide ((x3.lo, x3.hi) = (1, 3)))
    check 971 (decide (x3.schedule.name = "on_duty"))
    check 971 (decide (x3.len = 3))
    let x4 ← Workshift.new x1 1 none
    let x5 ← x4.startTime x1
    check 971 (decide (x5 = (ts 2017 10 1)))
    let x6 ← x4.duration x1
    check 971 (decide (x6 = 1))
    let x7 ← x4.endTime x1
    check 971 (decide (x7 = (ts 2017 10 1 23 59 59 + 999999999)))
    check 971 (decide (x4.label = (.num (8 : Rat))))
    let x8 ← x4.isOnDuty x1 none
    check 971 (x8)
    let x9 ← Workshift.new x1 2 none
    let x10 ← x9.startTime x1
    check 971 (decide (x10 = (ts 2017 10 2)))
    let x11 ← x9.duration x1
    check 971 (decide (x11 = 1))
    let x12 ← x9.endTime x1
    check 971 (decide (x12 = (ts 2017 10 2 23 59 59 + 999999999)))
    check 971 (decide (x9.label = (.num (4 : Rat))))
    let x13 ← x9.isOnDuty x1 none
    check 971 (!(x13))
    let x14 ← Workshift.new x1 3 none
    let x15 ← x14.startTime x1
    check 971 (decide (x15 = (ts 2017 10 3)))
    let x16 ← x14.duration x1
    check 971 (decide (x16 = 1))
    let x17 ← x14.endTime x1
    check 971 (decide (x17 = (ts 2017 10 3 23 59 59 + 999999999)))
    check 971 (decide (x14.label = (.num (8 : Rat))))
    let x18 ← x14.isOnDuty x1 none
    check 971 (x18)
    let x19 ← x3.worktime x1 V.num? .on none
    check 979 (decide (x19 = (2 : Rat)))
    let x20 ← x3.worktime x1 V.num? .off none
    check 981 (decide (x20 = (1 : Rat)))
    let x21 ← x3.worktime x1 V.num? .any none
    check 983 (decide (x21 = (3 : Rat)))
    pure ()) = true := by decide +kernel

/-- timeboard/interval.py 988: results at lines 993, 995, 997. -/
example : passes (do
    let (x1, x2) ← Timeboard.new (L := V) { freq := (⟨none, .D, by decide⟩ : Freq), start := (ts 2017 9 30), stop := (ts 2017 10 11), layout := .pattern (.list [(.i 4), (.i 8), (.i 4), (.i 8)]), selector := (fun x => x.gt (4 : Rat)), defaultLabel := V.none, worktimeSource := "labels" } (noHeap : Heap V)
    let x3 ← Interval.new x1 (1, 3) none
    let x4 ← x3.worktime x1 V.num? .on none
    check 993 (decide (x4 = (16 : Rat)))
    let x5 ← x3.worktime x1 V.num? .off none
    check 995 (decide (x5 = (4 : Rat)))
    let x6 ← x3.worktime x1 V.num? .any none
    check 997 (decide (x6 = (20 : Rat)))
    pure ()) = true := by decide +kernel

end TB.Conf
