import Verif.Conformance.Support
/-!
# Examples of `doc/source/quick_start.rst`

Generated by `tools/doc_examples.py`.  One example per session of the documentation: the printed results are those
of the model.  These are checks of the model on single inputs, not proofs of properties.
-/
set_option linter.unusedVariables false
set_option maxRecDepth 8192
namespace TB.Conf

/- doc/source/quick_start.rst 12: results at lines 29, 38, 47, 53, 66, 73, 80, 90, 98, 106, 112, 119. -/
#guard passes (do
    let x1 ← (usCalendar [] true).new none none false false none
    let x2 ← x1.call1 (.point (ts 2017 5 27))
    let x3 ← asWs x2
    let x4 ← x3.isOnDuty x1 none
    check 29 (!(x4))
    let x5 ← x3.rollforward x1 0 .on none
    check 38 (decide (x5.loc = 6359))
    check 38 (decide (x5.schedule.name = "on_duty"))
    let x6 ← x5.duration x1
    check 38 (decide (x6 = 1))
    let x7 ← x5.startTime x1
    check 38 (decide (x7 = (ts 2017 5 30)))
    let x8 ← x1.call1 (.point (ts 2017 5 1))
    let x9 ← asWs x8
    let x10 ← x9.add x1 22
    check 47 (decide (x10.loc = 6361))
    check 47 (decide (x10.schedule.name = "on_duty"))
    let x11 ← x10.duration x1
    check 47 (decide (x11 = 1))
    let x12 ← x10.startTime x1
    check 47 (decide (x12 = (ts 2017 6 1)))
    let x13 ← x1.call1 (.point (ts 2017 5 1))
    let x14 ← asWs x13
    let x15 ← x14.rollforward x1 22 .on none
    check 53 (decide (x15.loc = 6361))
    check 53 (decide (x15.schedule.name = "on_duty"))
    let x16 ← x15.duration x1
    check 53 (decide (x16 = 1))
    let x17 ← x15.startTime x1
    check 53 (decide (x17 = (ts 2017 6 1)))
    let x18 ← x1.callN (some (.point (ts 2017 5 1))) none (some (⟨none, .M, by decide⟩ : Freq)) true "11" none
    let x19 ← asIvl x18
    let x20 ← x19.count x1 .on none
    check 66 (decide (x20 = 22))
    let x21 ← x19.count x1 .off none
    check 73 (decide (x21 = 9))
    let x22 ← x19.worktime x1 (fun (n : Int) => some (n : Rat)) .on none
    check 80 (decide (x22 = (176 : Rat)))
    let x23 ← x1.call1 (.pair (some (ts 2017 4 3)) (some (ts 2017 5 15)))
    let x24 ← asIvl x23
    let x25 ← x1.callN (some (.point (ts 2017 4 1))) none (some (⟨none, .M, by decide⟩ : Freq)) true "11" none
    let x26 ← asIvl x25
    let x27 ← x24.whatPortionOf x1 x26 .on none
    check 90 (decide (x27 = (1 : Rat)))
    let x28 ← x24.whatPortionOf x1 x19 .on none
    check 98 (decide (x28 = ((1 : Rat) / 2)))
    let x29 ← x24.overlap x1 x19
    let x30 ← x29.count x1 .on none
    check 106 (decide (x30 = 11))
    let x31 ← x24.overlap x1 x19
    let x32 ← x31.worktime x1 (fun (n : Int) => some (n : Rat)) .on none
    check 112 (decide (x32 = (88 : Rat)))
    let x33 ← x1.call1 (.pair (some (ts 2016 1 1)) (some (ts 2017 7 15)))
    let x34 ← asIvl x33
    let x35 ← x34.countPeriods x1 (⟨none, .A none, by decide⟩ : Freq) .on none
    check 119 (decide (x35 = ((128 : Rat) / 83)))
    pure ())

end TB.Conf
