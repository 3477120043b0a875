import Verif.Conformance.Support
/-!
# Examples of `timeboard/workshift.py`

Generated by `tools/doc_examples.py`.  One example per session of the documentation: the printed results are those
of the model.  These are checks of the model on single inputs, not proofs of properties.
-/
set_option linter.unusedVariables false
set_option maxRecDepth 8192
namespace TB.Conf

/-- timeboard/workshift.py 59: results at lines 61, 64. -/
example : passes (do
    let (x1, x2) ← Timeboard.new (L := V) { freq := (⟨none, .D, by decide⟩ : Freq), start := (ts 2017 9 30), stop := (ts 2017 10 15), layout := .pattern (.list [(.i 0), (.i 1)]), selector := V.truthy, defaultLabel := V.none } (noHeap : Heap V)
    let x3 ← Workshift.new x1 1 none
    check 61 (decide (x3.loc = 1))
    check 61 (decide (x3.schedule.name = "on_duty"))
    let x4 ← x3.duration x1
    check 61 (decide (x4 = 1))
    let x5 ← x3.startTime x1
    check 61 (decide (x5 = (ts 2017 10 1)))
    check 64 (decide (x3.loc = 1))
    check 64 (decide (x3.schedule.name = "on_duty"))
    let x6 ← x3.duration x1
    check 64 (decide (x6 = 1))
    let x7 ← x3.startTime x1
    check 64 (decide (x7 = (ts 2017 10 1)))
    let x8 ← Workshift.new x1 1 none
    let x9 ← x8.startTime x1
    check 64 (decide (x9 = (ts 2017 10 1)))
    let x10 ← x8.duration x1
    check 64 (decide (x10 = 1))
    let x11 ← x8.endTime x1
    check 64 (decide (x11 = (ts 2017 10 1 23 59 59 + 999999999)))
    check 64 (decide (x8.label = (.num (1 : Rat))))
    let x12 ← x8.isOnDuty x1 none
    check 64 (x12)
    pure ()) = true := by decide +kernel

/-- timeboard/workshift.py 273: results at lines 278, 280, 282, 284, 286, 288, 290, 292, 296, 298, 300, 302, 304, 306, 308, 310, 316, 318. -/
example : passes (do
    let (x1, x2) ← Timeboard.new (L := V) { freq := (⟨none, .D, by decide⟩ : Freq), start := (ts 2017 9 30), stop := (ts 2017 10 15), layout := .pattern (.list [(.i 0), (.i 1)]), selector := V.truthy, defaultLabel := V.none } (noHeap : Heap V)
    let x3 ← x1.call1 (.point (ts 2017 10 5))
    let x4 ← asWs x3
    let x5 ← x4.isOnDuty x1 none
    check 278 (x5)
    let x6 ← x4.rollforward x1 0 .on none
    check 280 (decide (x6.loc = 5))
    check 280 (decide (x6.schedule.name = "on_duty"))
    let x7 ← x6.duration x1
    check 280 (decide (x7 = 1))
    let x8 ← x6.startTime x1
    check 280 (decide (x8 = (ts 2017 10 5)))
    let x9 ← x4.rollforward x1 1 .on none
    check 282 (decide (x9.loc = 7))
    check 282 (decide (x9.schedule.name = "on_duty"))
    let x10 ← x9.duration x1
    check 282 (decide (x10 = 1))
    let x11 ← x9.startTime x1
    check 282 (decide (x11 = (ts 2017 10 7)))
    let x12 ← x4.add x1 1
    check 284 (decide (x12.loc = 7))
    check 284 (decide (x12.schedule.name = "on_duty"))
    let x13 ← x12.duration x1
    check 284 (decide (x13 = 1))
    let x14 ← x12.startTime x1
    check 284 (decide (x14 = (ts 2017 10 7)))
    let x15 ← x4.rollforward x1 (-1) .on none
    check 286 (decide (x15.loc = 3))
    check 286 (decide (x15.schedule.name = "on_duty"))
    let x16 ← x15.duration x1
    check 286 (decide (x16 = 1))
    let x17 ← x15.startTime x1
    check 286 (decide (x17 = (ts 2017 10 3)))
    let x18 ← x4.rollforward x1 0 .off none
    check 288 (decide (x18.loc = 6))
    check 288 (decide (x18.schedule.name = "on_duty"))
    let x19 ← x18.duration x1
    check 288 (decide (x19 = 1))
    let x20 ← x18.startTime x1
    check 288 (decide (x20 = (ts 2017 10 6)))
    let x21 ← x4.rollforward x1 1 .off none
    check 290 (decide (x21.loc = 8))
    check 290 (decide (x21.schedule.name = "on_duty"))
    let x22 ← x21.duration x1
    check 290 (decide (x22 = 1))
    let x23 ← x21.startTime x1
    check 290 (decide (x23 = (ts 2017 10 8)))
    let x24 ← x4.rollforward x1 (-1) .off none
    check 292 (decide (x24.loc = 4))
    check 292 (decide (x24.schedule.name = "on_duty"))
    let x25 ← x24.duration x1
    check 292 (decide (x25 = 1))
    let x26 ← x24.startTime x1
    check 292 (decide (x26 = (ts 2017 10 4)))
    let x27 ← x1.call1 (.point (ts 2017 10 6))
    let x28 ← asWs x27
    let x29 ← x28.isOffDuty x1 none
    check 296 (x29)
    let x30 ← x28.rollforward x1 0 .on none
    check 298 (decide (x30.loc = 7))
    check 298 (decide (x30.schedule.name = "on_duty"))
    let x31 ← x30.duration x1
    check 298 (decide (x31 = 1))
    let x32 ← x30.startTime x1
    check 298 (decide (x32 = (ts 2017 10 7)))
    let x33 ← x28.rollforward x1 1 .on none
    check 300 (decide (x33.loc = 9))
    check 300 (decide (x33.schedule.name = "on_duty"))
    let x34 ← x33.duration x1
    check 300 (decide (x34 = 1))
    let x35 ← x33.startTime x1
    check 300 (decide (x35 = (ts 2017 10 9)))
    let x36 ← x28.add x1 1
    check 302 (decide (x36.loc = 9))
    check 302 (decide (x36.schedule.name = "on_duty"))
    let x37 ← x36.duration x1
    check 302 (decide (x37 = 1))
    let x38 ← x36.startTime x1
    check 302 (decide (x38 = (ts 2017 10 9)))
    let x39 ← x28.rollforward x1 (-1) .on none
    check 304 (decide (x39.loc = 5))
    check 304 (decide (x39.schedule.name = "on_duty"))
    let x40 ← x39.duration x1
    check 304 (decide (x40 = 1))
    let x41 ← x39.startTime x1
    check 304 (decide (x41 = (ts 2017 10 5)))
    let x42 ← x28.rollforward x1 0 .off none
    check 306 (decide (x42.loc = 6))
    check 306 (decide (x42.schedule.name = "on_duty"))
    let x43 ← x42.duration x1
    check 306 (decide (x43 = 1))
    let x44 ← x42.startTime x1
    check 306 (decide (x44 = (ts 2017 10 6)))
    let x45 ← x28.rollforward x1 1 .off none
    check 308 (decide (x45.loc = 8))
    check 308 (decide (x45.schedule.name = "on_duty"))
    let x46 ← x45.duration x1
    check 308 (decide (x46 = 1))
    let x47 ← x45.startTime x1
    check 308 (decide (x47 = (ts 2017 10 8)))
    let x48 ← x28.rollforward x1 (-1) .off none
    check 310 (decide (x48.loc = 4))
    check 310 (decide (x48.schedule.name = "on_duty"))
    let x49 ← x48.duration x1
    check 310 (decide (x49 = 1))
    let x50 ← x48.startTime x1
    check 310 (decide (x50 = (ts 2017 10 4)))
    let x51 ← x28.rollforward x1 (-1) .on none
    check 316 (decide (x51.loc = 5))
    check 316 (decide (x51.schedule.name = "on_duty"))
    let x52 ← x51.duration x1
    check 316 (decide (x52 = 1))
    let x53 ← x51.startTime x1
    check 316 (decide (x53 = (ts 2017 10 5)))
    let x54 ← x28.sub x1 1
    check 318 (decide (x54.loc = 3))
    check 318 (decide (x54.schedule.name = "on_duty"))
    let x55 ← x54.duration x1
    check 318 (decide (x55 = 1))
    let x56 ← x54.startTime x1
    check 318 (decide (x56 = (ts 2017 10 3)))
    pure ()) = true := by decide +kernel

/-- timeboard/workshift.py 411: results at lines 416, 418, 420, 422, 424, 426, 428, 430, 434, 436, 438, 440, 442, 444, 446, 448, 454, 456. -/
example : passes (do
    let (x1, x2) ← Timeboard.new (L := V) { freq := (⟨none, .D, by decide⟩ : Freq), start := (ts 2017 9 30), stop := (ts 2017 10 15), layout := .pattern (.list [(.i 0), (.i 1)]), selector := V.truthy, defaultLabel := V.none } (noHeap : Heap V)
    let x3 ← x1.call1 (.point (ts 2017 10 5))
    let x4 ← asWs x3
    let x5 ← x4.isOnDuty x1 none
    check 416 (x5)
    let x6 ← x4.rollback x1 0 .on none
    check 418 (decide (x6.loc = 5))
    check 418 (decide (x6.schedule.name = "on_duty"))
    let x7 ← x6.duration x1
    check 418 (decide (x7 = 1))
    let x8 ← x6.startTime x1
    check 418 (decide (x8 = (ts 2017 10 5)))
    let x9 ← x4.rollback x1 1 .on none
    check 420 (decide (x9.loc = 3))
    check 420 (decide (x9.schedule.name = "on_duty"))
    let x10 ← x9.duration x1
    check 420 (decide (x10 = 1))
    let x11 ← x9.startTime x1
    check 420 (decide (x11 = (ts 2017 10 3)))
    let x12 ← x4.sub x1 1
    check 422 (decide (x12.loc = 3))
    check 422 (decide (x12.schedule.name = "on_duty"))
    let x13 ← x12.duration x1
    check 422 (decide (x13 = 1))
    let x14 ← x12.startTime x1
    check 422 (decide (x14 = (ts 2017 10 3)))
    let x15 ← x4.rollback x1 (-1) .on none
    check 424 (decide (x15.loc = 7))
    check 424 (decide (x15.schedule.name = "on_duty"))
    let x16 ← x15.duration x1
    check 424 (decide (x16 = 1))
    let x17 ← x15.startTime x1
    check 424 (decide (x17 = (ts 2017 10 7)))
    let x18 ← x4.rollback x1 0 .off none
    check 426 (decide (x18.loc = 4))
    check 426 (decide (x18.schedule.name = "on_duty"))
    let x19 ← x18.duration x1
    check 426 (decide (x19 = 1))
    let x20 ← x18.startTime x1
    check 426 (decide (x20 = (ts 2017 10 4)))
    let x21 ← x4.rollback x1 1 .off none
    check 428 (decide (x21.loc = 2))
    check 428 (decide (x21.schedule.name = "on_duty"))
    let x22 ← x21.duration x1
    check 428 (decide (x22 = 1))
    let x23 ← x21.startTime x1
    check 428 (decide (x23 = (ts 2017 10 2)))
    let x24 ← x4.rollback x1 (-1) .off none
    check 430 (decide (x24.loc = 6))
    check 430 (decide (x24.schedule.name = "on_duty"))
    let x25 ← x24.duration x1
    check 430 (decide (x25 = 1))
    let x26 ← x24.startTime x1
    check 430 (decide (x26 = (ts 2017 10 6)))
    let x27 ← x1.call1 (.point (ts 2017 10 6))
    let x28 ← asWs x27
    let x29 ← x28.isOffDuty x1 none
    check 434 (x29)
    let x30 ← x28.rollback x1 0 .on none
    check 436 (decide (x30.loc = 5))
    check 436 (decide (x30.schedule.name = "on_duty"))
    let x31 ← x30.duration x1
    check 436 (decide (x31 = 1))
    let x32 ← x30.startTime x1
    check 436 (decide (x32 = (ts 2017 10 5)))
    let x33 ← x28.rollback x1 1 .on none
    check 438 (decide (x33.loc = 3))
    check 438 (decide (x33.schedule.name = "on_duty"))
    let x34 ← x33.duration x1
    check 438 (decide (x34 = 1))
    let x35 ← x33.startTime x1
    check 438 (decide (x35 = (ts 2017 10 3)))
    let x36 ← x28.sub x1 1
    check 440 (decide (x36.loc = 3))
    check 440 (decide (x36.schedule.name = "on_duty"))
    let x37 ← x36.duration x1
    check 440 (decide (x37 = 1))
    let x38 ← x36.startTime x1
    check 440 (decide (x38 = (ts 2017 10 3)))
    let x39 ← x28.rollback x1 (-1) .on none
    check 442 (decide (x39.loc = 7))
    check 442 (decide (x39.schedule.name = "on_duty"))
    let x40 ← x39.duration x1
    check 442 (decide (x40 = 1))
    let x41 ← x39.startTime x1
    check 442 (decide (x41 = (ts 2017 10 7)))
    let x42 ← x28.rollback x1 0 .off none
    check 444 (decide (x42.loc = 6))
    check 444 (decide (x42.schedule.name = "on_duty"))
    let x43 ← x42.duration x1
    check 444 (decide (x43 = 1))
    let x44 ← x42.startTime x1
    check 444 (decide (x44 = (ts 2017 10 6)))
    let x45 ← x28.rollback x1 1 .off none
    check 446 (decide (x45.loc = 4))
    check 446 (decide (x45.schedule.name = "on_duty"))
    let x46 ← x45.duration x1
    check 446 (decide (x46 = 1))
    let x47 ← x45.startTime x1
    check 446 (decide (x47 = (ts 2017 10 4)))
    let x48 ← x28.rollback x1 (-1) .off none
    check 448 (decide (x48.loc = 8))
    check 448 (decide (x48.schedule.name = "on_duty"))
    let x49 ← x48.duration x1
    check 448 (decide (x49 = 1))
    let x50 ← x48.startTime x1
    check 448 (decide (x50 = (ts 2017 10 8)))
    let x51 ← x28.rollback x1 (-1) .on none
    check 454 (decide (x51.loc = 7))
    check 454 (decide (x51.schedule.name = "on_duty"))
    let x52 ← x51.duration x1
    check 454 (decide (x52 = 1))
    let x53 ← x51.startTime x1
    check 454 (decide (x53 = (ts 2017 10 7)))
    let x54 ← x28.add x1 1
    check 456 (decide (x54.loc = 9))
    check 456 (decide (x54.schedule.name = "on_duty"))
    let x55 ← x54.duration x1
    check 456 (decide (x55 = 1))
    let x56 ← x54.startTime x1
    check 456 (decide (x56 = (ts 2017 10 9)))
    pure ()) = true := by decide +kernel

/-- timeboard/workshift.py 520: results at lines 524, 526, 528, 530, 532, 534. -/
example : passes (do
    let (x1, x2) ← Timeboard.new (L := V) { freq := (⟨none, .D, by decide⟩ : Freq), start := (ts 2017 9 30), stop := (ts 2017 10 11), layout := .pattern (.list [(.i 4), (.i 8), (.i 4), (.i 8)]), selector := (fun x => x.gt (4 : Rat)), defaultLabel := V.none } (noHeap : Heap V)
    let x3 ← Workshift.new x1 3 none
    check 524 (decide (x3.label = (.i 8)))
    let x4 ← x3.duration x1
    check 526 (decide (x4 = 1))
    let x5 ← x3.isOnDuty x1 none
    check 528 (x5)
    let x6 ← x3.worktime x1 V.num? .on none
    check 530 (decide (x6 = (1 : Rat)))
    let x7 ← x3.worktime x1 V.num? .off none
    check 532 (decide (x7 = (0 : Rat)))
    let x8 ← x3.worktime x1 V.num? .any none
    check 534 (decide (x8 = (1 : Rat)))
    pure ()) = true := by decide +kernel

/-- timeboard/workshift.py 539: results at lines 544, 546, 548, 551, 553, 555, 557, 559. -/
example : passes (do
    let (x1, x2) ← Timeboard.new (L := V) { freq := (⟨none, .D, by decide⟩ : Freq), start := (ts 2017 9 30), stop := (ts 2017 10 11), layout := .pattern (.list [(.i 4), (.i 8), (.i 4), (.i 8)]), selector := (fun x => x.gt (4 : Rat)), defaultLabel := V.none, worktimeSource := "labels" } (noHeap : Heap V)
    let x3 ← Workshift.new x1 3 none
    let x4 ← x3.worktime x1 V.num? .on none
    check 544 (decide (x4 = (8 : Rat)))
    let x5 ← x3.worktime x1 V.num? .off none
    check 546 (decide (x5 = (0 : Rat)))
    let x6 ← x3.worktime x1 V.num? .any none
    check 548 (decide (x6 = (8 : Rat)))
    let x7 ← Workshift.new x1 2 none
    check 551 (decide (x7.label = (.i 4)))
    let x8 ← x7.isOffDuty x1 none
    check 553 (x8)
    let x9 ← x7.worktime x1 V.num? .on none
    check 555 (decide (x9 = (0 : Rat)))
    let x10 ← x7.worktime x1 V.num? .off none
    check 557 (decide (x10 = (4 : Rat)))
    let x11 ← x7.worktime x1 V.num? .any none
    check 559 (decide (x11 = (4 : Rat)))
    pure ()) = true := by decide +kernel

end TB.Conf
