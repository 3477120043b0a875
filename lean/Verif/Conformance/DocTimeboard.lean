import Verif.Conformance.Support
/-!
# Examples of `timeboard/timeboard.py`

Generated by `tools/doc_examples.py`.  One example per session of the documentation: the printed results are those
of the model.  These are checks of the model on single inputs, not proofs of properties.
-/
set_option linter.unusedVariables false
set_option maxRecDepth 8192
namespace TB.Conf

/-- timeboard/timeboard.py 126: results at line 127. -/
example : passes (do
    let (x1, x2) ← Timeboard.new (L := V) { freq := (⟨none, .D, by decide⟩ : Freq), start := (ts 2017 9 30), stop := (ts 2017 10 9), layout := .pattern (.list [(.i 0), (.i 1)]), selector := V.truthy, defaultLabel := V.none } (noHeap : Heap V)
    let x3 ← Workshift.new x1 0 none
    let x4 ← x3.startTime x1
    check 127 (decide (x4 = (ts 2017 9 30)))
    let x5 ← x3.duration x1
    check 127 (decide (x5 = 1))
    let x6 ← x3.endTime x1
    check 127 (decide (x6 = (ts 2017 9 30 23 59 59 + 999999999)))
    check 127 (decide (x3.label = (.num (0 : Rat))))
    let x7 ← x3.isOnDuty x1 none
    check 127 (!(x7))
    let x8 ← Workshift.new x1 1 none
    let x9 ← x8.startTime x1
    check 127 (decide (x9 = (ts 2017 10 1)))
    let x10 ← x8.duration x1
    check 127 (decide (x10 = 1))
    let x11 ← x8.endTime x1
    check 127 (decide (x11 = (ts 2017 10 1 23 59 59 + 999999999)))
    check 127 (decide (x8.label = (.num (1 : Rat))))
    let x12 ← x8.isOnDuty x1 none
    check 127 (x12)
    let x13 ← Workshift.new x1 2 none
    let x14 ← x13.startTime x1
    check 127 (decide (x14 = (ts 2017 10 2)))
    let x15 ← x13.duration x1
    check 127 (decide (x15 = 1))
    let x16 ← x13.endTime x1
    check 127 (decide (x16 = (ts 2017 10 2 23 59 59 + 999999999)))
    check 127 (decide (x13.label = (.num (0 : Rat))))
    let x17 ← x13.isOnDuty x1 none
    check 127 (!(x17))
    let x18 ← Workshift.new x1 3 none
    let x19 ← x18.startTime x1
    check 127 (decide (x19 = (ts 2017 10 3)))
    let x20 ← x18.duration x1
    check 127 (decide (x20 = 1))
    let x21 ← x18.endTime x1
    check 127 (decide (x21 = (ts 2017 10 3 23 59 59 + 999999999)))
    check 127 (decide (x18.label = (.num (1 : Rat))))
    let x22 ← x18.isOnDuty x1 none
    check 127 (x22)
    let x23 ← Workshift.new x1 4 none
    let x24 ← x23.startTime x1
    check 127 (decide (x24 = (ts 2017 10 4)))
    let x25 ← x23.duration x1
    check 127 (decide (x25 = 1))
    let x26 ← x23.endTime x1
    check 127 (decide (x26 = (ts 2017 10 4 23 59 59 + 999999999)))
    check 127 (decide (x23.label = (.num (0 : Rat))))
    let x27 ← x23.isOnDuty x1 none
    check 127 (!(x27))
    let x28 ← Workshift.new x1 5 none
    let x29 ← x28.startTime x1
    check 127 (decide (x29 = (ts 2017 10 5)))
    let x30 ← x28.duration x1
    check 127 (decide (x30 = 1))
    let x31 ← x28.endTime x1
    check 127 (decide (x31 = (ts 2017 10 5 23 59 59 + 999999999)))
    check 127 (decide (x28.label = (.num (1 : Rat))))
    let x32 ← x28.isOnDuty x1 none
    check 127 (x32)
    let x33 ← Workshift.new x1 6 none
    let x34 ← x33.startTime x1
    check 127 (decide (x34 = (ts 2017 10 6)))
    let x35 ← x33.duration x1
    check 127 (decide (x35 = 1))
    let x36 ← x33.endTime x1
    check 127 (decide (x36 = (ts 2017 10 6 23 59 59 + 999999999)))
    check 127 (decide (x33.label = (.num (0 : Rat))))
    let x37 ← x33.isOnDuty x1 none
    check 127 (!(x37))
    let x38 ← Workshift.new x1 7 none
    let x39 ← x38.startTime x1
    check 127 (decide (x39 = (ts 2017 10 7)))
    let x40 ← x38.duration x1
    check 127 (decide (x40 = 1))
    let x41 ← x38.endTime x1
    check 127 (decide (x41 = (ts 2017 10 7 23 59 59 + 999999999)))
    check 127 (decide (x38.label = (.num (1 : Rat))))
    let x42 ← x38.isOnDuty x1 none
    check 127 (x42)
    let x43 ← Workshift.new x1 8 none
    let x44 ← x43.startTime x1
    check 127 (decide (x44 = (ts 2017 10 8)))
    let x45 ← x43.duration x1
    check 127 (decide (x45 = 1))
    let x46 ← x43.endTime x1
    check 127 (decide (x46 = (ts 2017 10 8 23 59 59 + 999999999)))
    check 127 (decide (x43.label = (.num (0 : Rat))))
    let x47 ← x43.isOnDuty x1 none
    check 127 (!(x47))
    let x48 ← Workshift.new x1 9 none
    let x49 ← x48.startTime x1
    check 127 (decide (x49 = (ts 2017 10 9)))
    let x50 ← x48.duration x1
    check 127 (decide (x50 = 1))
    let x51 ← x48.endTime x1
    check 127 (decide (x51 = (ts 2017 10 9 23 59 59 + 999999999)))
    check 127 (decide (x48.label = (.num (1 : Rat))))
    let x52 ← x48.isOnDuty x1 none
    check 127 (x52)
    pure ()) = true := by decide +kernel

/-- timeboard/timeboard.py 144: results at line 145. -/
example : passes (do
    let (x1, x2) ← Timeboard.new (L := V) { freq := (⟨none, .D, by decide⟩ : Freq), start := (ts 2017 9 30), stop := (ts 2017 10 9), layout := .organizer (.marker { each := (⟨none, .W none, by decide⟩ : Freq), ats := [] }) [.pattern (.list [(.i 1), (.i 1), (.i 1), (.i 1), (.i 1), (.i 0), (.i 0)])], selector := V.truthy, defaultLabel := V.none } (noHeap : Heap V)
    let x3 ← Workshift.new x1 0 none
    let x4 ← x3.startTime x1
    check 145 (decide (x4 = (ts 2017 9 30)))
    let x5 ← x3.duration x1
    check 145 (decide (x5 = 1))
    let x6 ← x3.endTime x1
    check 145 (decide (x6 = (ts 2017 9 30 23 59 59 + 999999999)))
    check 145 (decide (x3.label = (.num (0 : Rat))))
    let x7 ← x3.isOnDuty x1 none
    check 145 (!(x7))
    let x8 ← Workshift.new x1 1 none
    let x9 ← x8.startTime x1
    check 145 (decide (x9 = (ts 2017 10 1)))
    let x10 ← x8.duration x1
    check 145 (decide (x10 = 1))
    let x11 ← x8.endTime x1
    check 145 (decide (x11 = (ts 2017 10 1 23 59 59 + 999999999)))
    check 145 (decide (x8.label = (.num (0 : Rat))))
    let x12 ← x8.isOnDuty x1 none
    check 145 (!(x12))
    let x13 ← Workshift.new x1 2 none
    let x14 ← x13.startTime x1
    check 145 (decide (x14 = (ts 2017 10 2)))
    let x15 ← x13.duration x1
    check 145 (decide (x15 = 1))
    let x16 ← x13.endTime x1
    check 145 (decide (x16 = (ts 2017 10 2 23 59 59 + 999999999)))
    check 145 (decide (x13.label = (.num (1 : Rat))))
    let x17 ← x13.isOnDuty x1 none
    check 145 (x17)
    let x18 ← Workshift.new x1 3 none
    let x19 ← x18.startTime x1
    check 145 (decide (x19 = (ts 2017 10 3)))
    let x20 ← x18.duration x1
    check 145 (decide (x20 = 1))
    let x21 ← x18.endTime x1
    check 145 (decide (x21 = (ts 2017 10 3 23 59 59 + 999999999)))
    check 145 (decide (x18.label = (.num (1 : Rat))))
    let x22 ← x18.isOnDuty x1 none
    check 145 (x22)
    let x23 ← Workshift.new x1 4 none
    let x24 ← x23.startTime x1
    check 145 (decide (x24 = (ts 2017 10 4)))
    let x25 ← x23.duration x1
    check 145 (decide (x25 = 1))
    let x26 ← x23.endTime x1
    check 145 (decide (x26 = (ts 2017 10 4 23 59 59 + 999999999)))
    check 145 (decide (x23.label = (.num (1 : Rat))))
    let x27 ← x23.isOnDuty x1 none
    check 145 (x27)
    let x28 ← Workshift.new x1 5 none
    let x29 ← x28.startTime x1
    check 145 (decide (x29 = (ts 2017 10 5)))
    let x30 ← x28.duration x1
    check 145 (decide (x30 = 1))
    let x31 ← x28.endTime x1
    check 145 (decide (x31 = (ts 2017 10 5 23 59 59 + 999999999)))
    check 145 (decide (x28.label = (.num (1 : Rat))))
    let x32 ← x28.isOnDuty x1 none
    check 145 (x32)
    let x33 ← Workshift.new x1 6 none
    let x34 ← x33.startTime x1
    check 145 (decide (x34 = (ts 2017 10 6)))
    let x35 ← x33.duration x1
    check 145 (decide (x35 = 1))
    let x36 ← x33.endTime x1
    check 145 (decide (x36 = (ts 2017 10 6 23 59 59 + 999999999)))
    check 145 (decide (x33.label = (.num (1 : Rat))))
    let x37 ← x33.isOnDuty x1 none
    check 145 (x37)
    let x38 ← Workshift.new x1 7 none
    let x39 ← x38.startTime x1
    check 145 (decide (x39 = (ts 2017 10 7)))
    let x40 ← x38.duration x1
    check 145 (decide (x40 = 1))
    let x41 ← x38.endTime x1
    check 145 (decide (x41 = (ts 2017 10 7 23 59 59 + 999999999)))
    check 145 (decide (x38.label = (.num (0 : Rat))))
    let x42 ← x38.isOnDuty x1 none
    check 145 (!(x42))
    let x43 ← Workshift.new x1 8 none
    let x44 ← x43.startTime x1
    check 145 (decide (x44 = (ts 2017 10 8)))
    let x45 ← x43.duration x1
    check 145 (decide (x45 = 1))
    let x46 ← x43.endTime x1
    check 145 (decide (x46 = (ts 2017 10 8 23 59 59 + 999999999)))
    check 145 (decide (x43.label = (.num (0 : Rat))))
    let x47 ← x43.isOnDuty x1 none
    check 145 (!(x47))
    let x48 ← Workshift.new x1 9 none
    let x49 ← x48.startTime x1
    check 145 (decide (x49 = (ts 2017 10 9)))
    let x50 ← x48.duration x1
    check 145 (decide (x50 = 1))
    let x51 ← x48.endTime x1
    check 145 (decide (x51 = (ts 2017 10 9 23 59 59 + 999999999)))
    check 145 (decide (x48.label = (.num (1 : Rat))))
    let x52 ← x48.isOnDuty x1 none
    check 145 (x52)
    pure ()) = true := by decide +kernel

/-- timeboard/timeboard.py 286: results at lines 287, 290, 292, 294, 296, 305. -/
example : passes (do
    let (x1, x2) ← Timeboard.new (L := V) { freq := (⟨none, .D, by decide⟩ : Freq), start := (ts 2017 9 30), stop := (ts 2017 10 15), layout := .pattern (.list [(.i 0), (.i 1)]), selector := V.truthy, defaultLabel := V.none } (noHeap : Heap V)
    let x3 ← x1.call1 (.point (ts 2017 10 1))
    let x4 ← asWs x3
    check 287 (decide (x4.loc = 1))
    check 287 (decide (x4.schedule.name = "on_duty"))
    let x5 ← x4.duration x1
    check 287 (decide (x5 = 1))
    let x6 ← x4.startTime x1
    check 287 (decide (x6 = (ts 2017 10 1)))
    let x7 ← x1.call1 (.pair (some (ts 2017 10 2)) (some (ts 2017 10 8)))
    let x8 ← asIvl x7
    check 290 (decide ((x8.lo, x8.hi) = (2, 8)))
    check 290 (decide (x8.schedule.name = "on_duty"))
    check 290 (decide (x8.len = 7))
    let x9 ← x1.callN (some (.point (ts 2017 10 2))) (some 7) none true "11" none
    let x10 ← asIvl x9
    check 292 (decide ((x10.lo, x10.hi) = (2, 8)))
    check 292 (decide (x10.schedule.name = "on_duty"))
    check 292 (decide (x10.len = 7))
    let x11 ← x1.callN (some (.point (ts 2017 10 5))) none (some (⟨none, .W none, by decide⟩ : Freq)) true "11" none
    let x12 ← asIvl x11
    check 294 (decide ((x12.lo, x12.hi) = (2, 8)))
    check 294 (decide (x12.schedule.name = "on_duty"))
    check 294 (decide (x12.len = 7))
    let x13 ← x1.callN none none none true "11" none
    let x14 ← asIvl x13
    check 296 (decide ((x14.lo, x14.hi) = (0, 15)))
    check 296 (decide (x14.schedule.name = "on_duty"))
    check 296 (decide (x14.len = 16))
    let x15 ← x1.call1 (.period (Period.ofTime (⟨none, .W none, by decide⟩ : Freq) (ts 2017 10 5)))
    let x16 ← asWs x15
    check 305 (decide (x16.loc = 2))
    check 305 (decide (x16.schedule.name = "on_duty"))
    let x17 ← x16.duration x1
    check 305 (decide (x17 = 1))
    let x18 ← x16.startTime x1
    check 305 (decide (x18 = (ts 2017 10 2)))
    pure ()) = true := by decide +kernel

/-- timeboard/timeboard.py 481: results at lines 482, 487. -/
example : passes (do
    let (x1, x2) ← Timeboard.new (L := V) { freq := (⟨none, .D, by decide⟩ : Freq), start := (ts 2017 9 30), stop := (ts 2017 10 15), layout := .pattern (.list [(.i 0), (.i 1)]), selector := V.truthy, defaultLabel := V.none } (noHeap : Heap V)
    let x3 ← x1.getWorkshift (ts 2017 10 1) none
    check 482 (decide (x3.loc = 1))
    check 482 (decide (x3.schedule.name = "on_duty"))
    let x4 ← x3.duration x1
    check 482 (decide (x4 = 1))
    let x5 ← x3.startTime x1
    check 482 (decide (x5 = (ts 2017 10 1)))
    let x6 ← x1.call1 (.point (ts 2017 10 1))
    let x7 ← asWs x6
    check 487 (decide (x7.loc = 1))
    check 487 (decide (x7.schedule.name = "on_duty"))
    let x8 ← x7.duration x1
    check 487 (decide (x8 = 1))
    let x9 ← x7.startTime x1
    check 487 (decide (x9 = (ts 2017 10 1)))
    pure ()) = true := by decide +kernel

/-- timeboard/timeboard.py 678: results at lines 679, 684, 689, 694, 699, 704, 711, 716, 721, 726. -/
example : passes (do
    let (x1, x2) ← Timeboard.new (L := V) { freq := (⟨none, .D, by decide⟩ : Freq), start := (ts 2017 9 30), stop := (ts 2017 10 15), layout := .pattern (.list [(.i 0), (.i 1)]), selector := V.truthy, defaultLabel := V.none } (noHeap : Heap V)
    let x3 ← x1.getInterval (some (.pair (some (ts 2017 10 2)) (some (ts 2017 10 8)))) none none true "11" none
    check 679 (decide ((x3.lo, x3.hi) = (2, 8)))
    check 679 (decide (x3.schedule.name = "on_duty"))
    check 679 (decide (x3.len = 7))
    let x4 ← x1.call1 (.pair (some (ts 2017 10 2)) (some (ts 2017 10 8)))
    let x5 ← asIvl x4
    check 684 (decide ((x5.lo, x5.hi) = (2, 8)))
    check 684 (decide (x5.schedule.name = "on_duty"))
    check 684 (decide (x5.len = 7))
    let x6 ← x1.getInterval (some (.point (ts 2017 10 2))) (some 7) none true "11" none
    check 689 (decide ((x6.lo, x6.hi) = (2, 8)))
    check 689 (decide (x6.schedule.name = "on_duty"))
    check 689 (decide (x6.len = 7))
    let x7 ← x1.callN (some (.point (ts 2017 10 2))) (some 7) none true "11" none
    let x8 ← asIvl x7
    check 694 (decide ((x8.lo, x8.hi) = (2, 8)))
    check 694 (decide (x8.schedule.name = "on_duty"))
    check 694 (decide (x8.len = 7))
    let x9 ← x1.getInterval (some (.point (ts 2017 10 5))) none (some (⟨none, .W none, by decide⟩ : Freq)) true "11" none
    check 699 (decide ((x9.lo, x9.hi) = (2, 8)))
    check 699 (decide (x9.schedule.name = "on_duty"))
    check 699 (decide (x9.len = 7))
    let x10 ← x1.callN (some (.point (ts 2017 10 5))) none (some (⟨none, .W none, by decide⟩ : Freq)) true "11" none
    let x11 ← asIvl x10
    check 704 (decide ((x11.lo, x11.hi) = (2, 8)))
    check 704 (decide (x11.schedule.name = "on_duty"))
    check 704 (decide (x11.len = 7))
    let x12 ← x1.getInterval (some (.period (Period.ofTime (⟨none, .W none, by decide⟩ : Freq) (ts 2017 10 5)))) none none true "11" none
    check 711 (decide ((x12.lo, x12.hi) = (2, 8)))
    check 711 (decide (x12.schedule.name = "on_duty"))
    check 711 (decide (x12.len = 7))
    let x13 ← x1.call1 (.period (Period.ofTime (⟨none, .W none, by decide⟩ : Freq) (ts 2017 10 5)))
    let x14 ← asWs x13
    check 716 (decide (x14.loc = 2))
    check 716 (decide (x14.schedule.name = "on_duty"))
    let x15 ← x14.duration x1
    check 716 (decide (x15 = 1))
    let x16 ← x14.startTime x1
    check 716 (decide (x16 = (ts 2017 10 2)))
    let x17 ← x1.getInterval none none none true "11" none
    check 721 (decide ((x17.lo, x17.hi) = (0, 15)))
    check 721 (decide (x17.schedule.name = "on_duty"))
    check 721 (decide (x17.len = 16))
    let x18 ← x1.callN none none none true "11" none
    let x19 ← asIvl x18
    check 726 (decide ((x19.lo, x19.hi) = (0, 15)))
    check 726 (decide (x19.schedule.name = "on_duty"))
    check 726 (decide (x19.len = 16))
    pure ()) = true := by decide +kernel

end TB.Conf
