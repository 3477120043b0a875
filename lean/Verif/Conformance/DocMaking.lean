import Verif.Conformance.Support
/-!
# Examples of `doc/source/making_a_timeboard.rst`

Generated by `tools/doc_examples.py`.  One example per session of the documentation: the printed results are those
of the model.  These are checks of the model on single inputs, not proofs of properties.
-/
set_option linter.unusedVariables false
set_option maxRecDepth 8192
namespace TB.Conf

/-- doc/source/making_a_timeboard.rst 24: results at line 47. -/
example : passes (do
    let (x1, x2) ← Timeboard.new (L := V) { freq := (⟨none, .D, by decide⟩ : Freq), start := (ts 2017 10 1), stop := (ts 2017 10 10), layout := .pattern (.list [(.i 1), (.i 0), (.i 0)]), selector := V.truthy, defaultLabel := V.none } (noHeap : Heap V)
    let x3 ← Workshift.new x1 0 none
    let x4 ← x3.startTime x1
    check 47 (decide (x4 = (ts 2017 10 1)))
    let x5 ← x3.duration x1
    check 47 (decide (x5 = 1))
    let x6 ← x3.endTime x1
    check 47 (decide (x6 = (ts 2017 10 1 23 59 59 + 999999999)))
    check 47 (decide (x3.label = (.num (1 : Rat))))
    let x7 ← x3.isOnDuty x1 none
    check 47 (x7)
    let x8 ← Workshift.new x1 1 none
    let x9 ← x8.startTime x1
    check 47 (decide (x9 = (ts 2017 10 2)))
    let x10 ← x8.duration x1
    check 47 (decide (x10 = 1))
    let x11 ← x8.endTime x1
    check 47 (decide (x11 = (ts 2017 10 2 23 59 59 + 999999999)))
    check 47 (decide (x8.label = (.num (0 : Rat))))
    let x12 ← x8.isOnDuty x1 none
    check 47 (!(x12))
    let x13 ← Workshift.new x1 2 none
    let x14 ← x13.startTime x1
    check 47 (decide (x14 = (ts 2017 10 3)))
    let x15 ← x13.duration x1
    check 47 (decide (x15 = 1))
    let x16 ← x13.endTime x1
    check 47 (decide (x16 = (ts 2017 10 3 23 59 59 + 999999999)))
    check 47 (decide (x13.label = (.num (0 : Rat))))
    let x17 ← x13.isOnDuty x1 none
    check 47 (!(x17))
    let x18 ← Workshift.new x1 3 none
    let x19 ← x18.startTime x1
    check 47 (decide (x19 = (ts 2017 10 4)))
    let x20 ← x18.duration x1
    check 47 (decide (x20 = 1))
    let x21 ← x18.endTime x1
    check 47 (decide (x21 = (ts 2017 10 4 23 59 59 + 999999999)))
    check 47 (decide (x18.label = (.num (1 : Rat))))
    let x22 ← x18.isOnDuty x1 none
    check 47 (x22)
    let x23 ← Workshift.new x1 4 none
    let x24 ← x23.startTime x1
    check 47 (decide (x24 = (ts 2017 10 5)))
    let x25 ← x23.duration x1
    check 47 (decide (x25 = 1))
    let x26 ← x23.endTime x1
    check 47 (decide (x26 = (ts 2017 10 5 23 59 59 + 999999999)))
    check 47 (decide (x23.label = (.num (0 : Rat))))
    let x27 ← x23.isOnDuty x1 none
    check 47 (!(x27))
    let x28 ← Workshift.new x1 5 none
    let x29 ← x28.startTime x1
    check 47 (decide (x29 = (ts 2017 10 6)))
    let x30 ← x28.duration x1
    check 47 (decide (x30 = 1))
    let x31 ← x28.endTime x1
    check 47 (decide (x31 = (ts 2017 10 6 23 59 59 + 999999999)))
    check 47 (decide (x28.label = (.num (0 : Rat))))
    let x32 ← x28.isOnDuty x1 none
    check 47 (!(x32))
    let x33 ← Workshift.new x1 6 none
    let x34 ← x33.startTime x1
    check 47 (decide (x34 = (ts 2017 10 7)))
    let x35 ← x33.duration x1
    check 47 (decide (x35 = 1))
    let x36 ← x33.endTime x1
    check 47 (decide (x36 = (ts 2017 10 7 23 59 59 + 999999999)))
    check 47 (decide (x33.label = (.num (1 : Rat))))
    let x37 ← x33.isOnDuty x1 none
    check 47 (x37)
    let x38 ← Workshift.new x1 7 none
    let x39 ← x38.startTime x1
    check 47 (decide (x39 = (ts 2017 10 8)))
    let x40 ← x38.duration x1
    check 47 (decide (x40 = 1))
    let x41 ← x38.endTime x1
    check 47 (decide (x41 = (ts 2017 10 8 23 59 59 + 999999999)))
    check 47 (decide (x38.label = (.num (0 : Rat))))
    let x42 ← x38.isOnDuty x1 none
    check 47 (!(x42))
    let x43 ← Workshift.new x1 8 none
    let x44 ← x43.startTime x1
    check 47 (decide (x44 = (ts 2017 10 9)))
    let x45 ← x43.duration x1
    check 47 (decide (x45 = 1))
    let x46 ← x43.endTime x1
    check 47 (decide (x46 = (ts 2017 10 9 23 59 59 + 999999999)))
    check 47 (decide (x43.label = (.num (0 : Rat))))
    let x47 ← x43.isOnDuty x1 none
    check 47 (!(x47))
    let x48 ← Workshift.new x1 9 none
    let x49 ← x48.startTime x1
    check 47 (decide (x49 = (ts 2017 10 10)))
    let x50 ← x48.duration x1
    check 47 (decide (x50 = 1))
    let x51 ← x48.endTime x1
    check 47 (decide (x51 = (ts 2017 10 10 23 59 59 + 999999999)))
    check 47 (decide (x48.label = (.num (1 : Rat))))
    let x52 ← x48.isOnDuty x1 none
    check 47 (x52)
    pure ()) = true := by decide +kernel

/-- doc/source/making_a_timeboard.rst 71: results at line 75. -/
example : passes (do
    let (x1, x2) ← Timeboard.new (L := V) { freq := (⟨none, .D, by decide⟩ : Freq), start := (ts 2017 10 1), stop := (ts 2017 10 10), layout := .pattern (.list [(.i 1), (.i 0), (.i 0)]), selector := V.truthy, defaultLabel := V.none, amendments := [((ts 2017 10 7 12), (.i 0))] } (noHeap : Heap V)
    let x3 ← Workshift.new x1 0 none
    let x4 ← x3.startTime x1
    check 75 (decide (x4 = (ts 2017 10 1)))
    let x5 ← x3.duration x1
    check 75 (decide (x5 = 1))
    let x6 ← x3.endTime x1
    check 75 (decide (x6 = (ts 2017 10 1 23 59 59 + 999999999)))
    check 75 (decide (x3.label = (.i 1)))
    let x7 ← x3.isOnDuty x1 none
    check 75 (x7)
    let x8 ← Workshift.new x1 1 none
    let x9 ← x8.startTime x1
    check 75 (decide (x9 = (ts 2017 10 2)))
    let x10 ← x8.duration x1
    check 75 (decide (x10 = 1))
    let x11 ← x8.endTime x1
    check 75 (decide (x11 = (ts 2017 10 2 23 59 59 + 999999999)))
    check 75 (decide (x8.label = (.i 0)))
    let x12 ← x8.isOnDuty x1 none
    check 75 (!(x12))
    let x13 ← Workshift.new x1 2 none
    let x14 ← x13.startTime x1
    check 75 (decide (x14 = (ts 2017 10 3)))
    let x15 ← x13.duration x1
    check 75 (decide (x15 = 1))
    let x16 ← x13.endTime x1
    check 75 (decide (x16 = (ts 2017 10 3 23 59 59 + 999999999)))
    check 75 (decide (x13.label = (.i 0)))
    let x17 ← x13.isOnDuty x1 none
    check 75 (!(x17))
    let x18 ← Workshift.new x1 3 none
    let x19 ← x18.startTime x1
    check 75 (decide (x19 = (ts 2017 10 4)))
    let x20 ← x18.duration x1
    check 75 (decide (x20 = 1))
    let x21 ← x18.endTime x1
    check 75 (decide (x21 = (ts 2017 10 4 23 59 59 + 999999999)))
    check 75 (decide (x18.label = (.i 1)))
    let x22 ← x18.isOnDuty x1 none
    check 75 (x22)
    let x23 ← Workshift.new x1 4 none
    let x24 ← x23.startTime x1
    check 75 (decide (x24 = (ts 2017 10 5)))
    let x25 ← x23.duration x1
    check 75 (decide (x25 = 1))
    let x26 ← x23.endTime x1
    check 75 (decide (x26 = (ts 2017 10 5 23 59 59 + 999999999)))
    check 75 (decide (x23.label = (.i 0)))
    let x27 ← x23.isOnDuty x1 none
    check 75 (!(x27))
    let x28 ← Workshift.new x1 5 none
    let x29 ← x28.startTime x1
    check 75 (decide (x29 = (ts 2017 10 6)))
    let x30 ← x28.duration x1
    check 75 (decide (x30 = 1))
    let x31 ← x28.endTime x1
    check 75 (decide (x31 = (ts 2017 10 6 23 59 59 + 999999999)))
    check 75 (decide (x28.label = (.i 0)))
    let x32 ← x28.isOnDuty x1 none
    check 75 (!(x32))
    let x33 ← Workshift.new x1 6 none
    let x34 ← x33.startTime x1
    check 75 (decide (x34 = (ts 2017 10 7)))
    let x35 ← x33.duration x1
    check 75 (decide (x35 = 1))
    let x36 ← x33.endTime x1
    check 75 (decide (x36 = (ts 2017 10 7 23 59 59 + 999999999)))
    check 75 (decide (x33.label = (.i 0)))
    let x37 ← x33.isOnDuty x1 none
    check 75 (!(x37))
    let x38 ← Workshift.new x1 7 none
    let x39 ← x38.startTime x1
    check 75 (decide (x39 = (ts 2017 10 8)))
    let x40 ← x38.duration x1
    check 75 (decide (x40 = 1))
    let x41 ← x38.endTime x1
    check 75 (decide (x41 = (ts 2017 10 8 23 59 59 + 999999999)))
    check 75 (decide (x38.label = (.i 0)))
    let x42 ← x38.isOnDuty x1 none
    check 75 (!(x42))
    let x43 ← Workshift.new x1 8 none
    let x44 ← x43.startTime x1
    check 75 (decide (x44 = (ts 2017 10 9)))
    let x45 ← x43.duration x1
    check 75 (decide (x45 = 1))
    let x46 ← x43.endTime x1
    check 75 (decide (x46 = (ts 2017 10 9 23 59 59 + 999999999)))
    check 75 (decide (x43.label = (.i 0)))
    let x47 ← x43.isOnDuty x1 none
    check 75 (!(x47))
    let x48 ← Workshift.new x1 9 none
    let x49 ← x48.startTime x1
    check 75 (decide (x49 = (ts 2017 10 10)))
    let x50 ← x48.duration x1
    check 75 (decide (x50 = 1))
    let x51 ← x48.endTime x1
    check 75 (decide (x51 = (ts 2017 10 10 23 59 59 + 999999999)))
    check 75 (decide (x48.label = (.i 1)))
    let x52 ← x48.isOnDuty x1 none
    check 75 (x52)
    pure ()) = true := by decide +kernel

/-- doc/source/making_a_timeboard.rst 95: results at line 95. -/
example : passes (do
    raises 95 [.keyError] (do
      let (x1, x2) ← Timeboard.new (L := V) { freq := (⟨none, .D, by decide⟩ : Freq), start := (ts 2017 10 1), stop := (ts 2017 10 10), layout := .pattern (.list [(.i 1), (.i 0), (.i 0)]), selector := V.truthy, defaultLabel := V.none, amendments := [((ts 2017 10 7 12), (.i 0)), ((ts 2017 10 7 15), (.i 1))] } (noHeap : Heap V)
      pure ())
    pure ()) = true := by decide +kernel

/- doc/source/making_a_timeboard.rst 140: results at lines 143, 175. -/
#guard passes (do
    let (x1, x2) ← Timeboard.new (L := V) { freq := (⟨some 8, .H, by decide⟩ : Freq), start := (ts 2017 10 1 2), stop := (ts 2017 10 5 1 59), layout := .pattern (.list [(.str "A"), (.str "B"), (.str "C"), (.str "D")]), selector := V.truthy, defaultLabel := V.none } (noHeap : Heap V)
    let x3 ← Workshift.new x1 0 none
    let x4 ← x3.toTimestamp x1
    check 143 (decide (x4 = (ts 2017 10 1 2)))
    let x5 ← x3.endTime x1
    check 143 (decide (x5 = (ts 2017 10 1 9 59 59 + 999999999)))
    check 143 (decide (x3.label = (.str "A")))
    let x6 ← x3.isOnDuty x1 none
    check 143 (x6)
    let x7 ← Workshift.new x1 1 none
    let x8 ← x7.toTimestamp x1
    check 143 (decide (x8 = (ts 2017 10 1 10)))
    let x9 ← x7.endTime x1
    check 143 (decide (x9 = (ts 2017 10 1 17 59 59 + 999999999)))
    check 143 (decide (x7.label = (.str "B")))
    let x10 ← x7.isOnDuty x1 none
    check 143 (x10)
    let x11 ← Workshift.new x1 2 none
    let x12 ← x11.toTimestamp x1
    check 143 (decide (x12 = (ts 2017 10 1 18)))
    let x13 ← x11.endTime x1
    check 143 (decide (x13 = (ts 2017 10 2 1 59 59 + 999999999)))
    check 143 (decide (x11.label = (.str "C")))
    let x14 ← x11.isOnDuty x1 none
    check 143 (x14)
    let x15 ← Workshift.new x1 3 none
    let x16 ← x15.toTimestamp x1
    check 143 (decide (x16 = (ts 2017 10 2 2)))
    let x17 ← x15.endTime x1
    check 143 (decide (x17 = (ts 2017 10 2 9 59 59 + 999999999)))
    check 143 (decide (x15.label = (.str "D")))
    let x18 ← x15.isOnDuty x1 none
    check 143 (x18)
    let x19 ← Workshift.new x1 4 none
    let x20 ← x19.toTimestamp x1
    check 143 (decide (x20 = (ts 2017 10 2 10)))
    let x21 ← x19.endTime x1
    check 143 (decide (x21 = (ts 2017 10 2 17 59 59 + 999999999)))
    check 143 (decide (x19.label = (.str "A")))
    let x22 ← x19.isOnDuty x1 none
    check 143 (x22)
    let x23 ← Workshift.new x1 5 none
    let x24 ← x23.toTimestamp x1
    check 143 (decide (x24 = (ts 2017 10 2 18)))
    let x25 ← x23.endTime x1
    check 143 (decide (x25 = (ts 2017 10 3 1 59 59 + 999999999)))
    check 143 (decide (x23.label = (.str "B")))
    let x26 ← x23.isOnDuty x1 none
    check 143 (x26)
    let x27 ← Workshift.new x1 6 none
    let x28 ← x27.toTimestamp x1
    check 143 (decide (x28 = (ts 2017 10 3 2)))
    let x29 ← x27.endTime x1
    check 143 (decide (x29 = (ts 2017 10 3 9 59 59 + 999999999)))
    check 143 (decide (x27.label = (.str "C")))
    let x30 ← x27.isOnDuty x1 none
    check 143 (x30)
    let x31 ← Workshift.new x1 7 none
    let x32 ← x31.toTimestamp x1
    check 143 (decide (x32 = (ts 2017 10 3 10)))
    let x33 ← x31.endTime x1
    check 143 (decide (x33 = (ts 2017 10 3 17 59 59 + 999999999)))
    check 143 (decide (x31.label = (.str "D")))
    let x34 ← x31.isOnDuty x1 none
    check 143 (x34)
    let x35 ← Workshift.new x1 8 none
    let x36 ← x35.toTimestamp x1
    check 143 (decide (x36 = (ts 2017 10 3 18)))
    let x37 ← x35.endTime x1
    check 143 (decide (x37 = (ts 2017 10 4 1 59 59 + 999999999)))
    check 143 (decide (x35.label = (.str "A")))
    let x38 ← x35.isOnDuty x1 none
    check 143 (x38)
    let x39 ← Workshift.new x1 9 none
    let x40 ← x39.toTimestamp x1
    check 143 (decide (x40 = (ts 2017 10 4 2)))
    let x41 ← x39.endTime x1
    check 143 (decide (x41 = (ts 2017 10 4 9 59 59 + 999999999)))
    check 143 (decide (x39.label = (.str "B")))
    let x42 ← x39.isOnDuty x1 none
    check 143 (x42)
    let x43 ← Workshift.new x1 10 none
    let x44 ← x43.toTimestamp x1
    check 143 (decide (x44 = (ts 2017 10 4 10)))
    let x45 ← x43.endTime x1
    check 143 (decide (x45 = (ts 2017 10 4 17 59 59 + 999999999)))
    check 143 (decide (x43.label = (.str "C")))
    let x46 ← x43.isOnDuty x1 none
    check 143 (x46)
    let x47 ← Workshift.new x1 11 none
    let x48 ← x47.toTimestamp x1
    check 143 (decide (x48 = (ts 2017 10 4 18)))
    let x49 ← x47.endTime x1
    check 143 (decide (x49 = (ts 2017 10 5 1 59 59 + 999999999)))
    check 143 (decide (x47.label = (.str "D")))
    let x50 ← x47.isOnDuty x1 none
    check 143 (x50)
    let (x51, x52) ← x1.addSchedule "team_A" (fun x => decide (x = (.str "A")))
    let x53 ← Workshift.new x52 0 none
    let x54 ← x53.toTimestamp x52
    check 175 (decide (x54 = (ts 2017 10 1 2)))
    let x55 ← x53.endTime x52
    check 175 (decide (x55 = (ts 2017 10 1 9 59 59 + 999999999)))
    check 175 (decide (x53.label = (.str "A")))
    let x56 ← x53.isOnDuty x52 none
    check 175 (x56)
    let x57 ← key x52.schedules "team_A"
    let x58 ← x53.isOnDuty x52 (some x57)
    check 175 (x58)
    let x59 ← Workshift.new x52 1 none
    let x60 ← x59.toTimestamp x52
    check 175 (decide (x60 = (ts 2017 10 1 10)))
    let x61 ← x59.endTime x52
    check 175 (decide (x61 = (ts 2017 10 1 17 59 59 + 999999999)))
    check 175 (decide (x59.label = (.str "B")))
    let x62 ← x59.isOnDuty x52 none
    check 175 (x62)
    let x63 ← key x52.schedules "team_A"
    let x64 ← x59.isOnDuty x52 (some x63)
    check 175 (!(x64))
    let x65 ← Workshift.new x52 2 none
    let x66 ← x65.toTimestamp x52
    check 175 (decide (x66 = (ts 2017 10 1 18)))
    let x67 ← x65.endTime x52
    check 175 (decide (x67 = (ts 2017 10 2 1 59 59 + 999999999)))
    check 175 (decide (x65.label = (.str "C")))
    let x68 ← x65.isOnDuty x52 none
    check 175 (x68)
    let x69 ← key x52.schedules "team_A"
    let x70 ← x65.isOnDuty x52 (some x69)
    check 175 (!(x70))
    let x71 ← Workshift.new x52 3 none
    let x72 ← x71.toTimestamp x52
    check 175 (decide (x72 = (ts 2017 10 2 2)))
    let x73 ← x71.endTime x52
    check 175 (decide (x73 = (ts 2017 10 2 9 59 59 + 999999999)))
    check 175 (decide (x71.label = (.str "D")))
    let x74 ← x71.isOnDuty x52 none
    check 175 (x74)
    let x75 ← key x52.schedules "team_A"
    let x76 ← x71.isOnDuty x52 (some x75)
    check 175 (!(x76))
    let x77 ← Workshift.new x52 4 none
    let x78 ← x77.toTimestamp x52
    check 175 (decide (x78 = (ts 2017 10 2 10)))
    let x79 ← x77.endTime x52
    check 175 (decide (x79 = (ts 2017 10 2 17 59 59 + 999999999)))
    check 175 (decide (x77.label = (.str "A")))
    let x80 ← x77.isOnDuty x52 none
    check 175 (x80)
    let x81 ← key x52.schedules "team_A"
    let x82 ← x77.isOnDuty x52 (some x81)
    check 175 (x82)
    let x83 ← Workshift.new x52 5 none
    let x84 ← x83.toTimestamp x52
    check 175 (decide (x84 = (ts 2017 10 2 18)))
    let x85 ← x83.endTime x52
    check 175 (decide (x85 = (ts 2017 10 3 1 59 59 + 999999999)))
    check 175 (decide (x83.label = (.str "B")))
    let x86 ← x83.isOnDuty x52 none
    check 175 (x86)
    let x87 ← key x52.schedules "team_A"
    let x88 ← x83.isOnDuty x52 (some x87)
    check 175 (!(x88))
    let x89 ← Workshift.new x52 6 none
    let x90 ← x89.toTimestamp x52
    check 175 (decide (x90 = (ts 2017 10 3 2)))
    let x91 ← x89.endTime x52
    check 175 (decide (x91 = (ts 2017 10 3 9 59 59 + 999999999)))
    check 175 (decide (x89.label = (.str "C")))
    let x92 ← x89.isOnDuty x52 none
    check 175 (x92)
    let x93 ← key x52.schedules "team_A"
    let x94 ← x89.isOnDuty x52 (some x93)
    check 175 (!(x94))
    let x95 ← Workshift.new x52 7 none
    let x96 ← x95.toTimestamp x52
    check 175 (decide (x96 = (ts 2017 10 3 10)))
    let x97 ← x95.endTime x52
    check 175 (decide (x97 = (ts 2017 10 3 17 59 59 + 999999999)))
    check 175 (decide (x95.label = (.str "D")))
    let x98 ← x95.isOnDuty x52 none
    check 175 (x98)
    let x99 ← key x52.schedules "team_A"
    let x100 ← x95.isOnDuty x52 (some x99)
    check 175 (!(x100))
    let x101 ← Workshift.new x52 8 none
    let x102 ← x101.toTimestamp x52
    check 175 (decide (x102 = (ts 2017 10 3 18)))
    let x103 ← x101.endTime x52
    check 175 (decide (x103 = (ts 2017 10 4 1 59 59 + 999999999)))
    check 175 (decide (x101.label = (.str "A")))
    let x104 ← x101.isOnDuty x52 none
    check 175 (x104)
    let x105 ← key x52.schedules "team_A"
    let x106 ← x101.isOnDuty x52 (some x105)
    check 175 (x106)
    let x107 ← Workshift.new x52 9 none
    let x108 ← x107.toTimestamp x52
    check 175 (decide (x108 = (ts 2017 10 4 2)))
    let x109 ← x107.endTime x52
    check 175 (decide (x109 = (ts 2017 10 4 9 59 59 + 999999999)))
    check 175 (decide (x107.label = (.str "B")))
    let x110 ← x107.isOnDuty x52 none
    check 175 (x110)
    let x111 ← key x52.schedules "team_A"
    let x112 ← x107.isOnDuty x52 (some x111)
    check 175 (!(x112))
    let x113 ← Workshift.new x52 10 none
    let x114 ← x113.toTimestamp x52
    check 175 (decide (x114 = (ts 2017 10 4 10)))
    let x115 ← x113.endTime x52
    check 175 (decide (x115 = (ts 2017 10 4 17 59 59 + 999999999)))
    check 175 (decide (x113.label = (.str "C")))
    let x116 ← x113.isOnDuty x52 none
    check 175 (x116)
    let x117 ← key x52.schedules "team_A"
    let x118 ← x113.isOnDuty x52 (some x117)
    check 175 (!(x118))
    let x119 ← Workshift.new x52 11 none
    let x120 ← x119.toTimestamp x52
    check 175 (decide (x120 = (ts 2017 10 4 18)))
    let x121 ← x119.endTime x52
    check 175 (decide (x121 = (ts 2017 10 5 1 59 59 + 999999999)))
    check 175 (decide (x119.label = (.str "D")))
    let x122 ← x119.isOnDuty x52 none
    check 175 (x122)
    let x123 ← key x52.schedules "team_A"
    let x124 ← x119.isOnDuty x52 (some x123)
    check 175 (!(x124))
    pure ())

/-- doc/source/making_a_timeboard.rst 273: results at line 292. -/
example : passes (do
    let (x1, x2) ← Timeboard.new (L := V) { freq := (⟨none, .D, by decide⟩ : Freq), start := (ts 2017 10 1), stop := (ts 2017 10 12), layout := .organizer (.marker { each := (⟨none, .W none, by decide⟩ : Freq), ats := [] }) [.pattern (.list [(.i 1), (.i 1), (.i 1), (.i 1), (.i 1), (.i 0), (.i 0)])], selector := V.truthy, defaultLabel := V.none } (noHeap : Heap V)
    let x3 ← Workshift.new x1 0 none
    let x4 ← x3.startTime x1
    check 292 (decide (x4 = (ts 2017 10 1)))
    let x5 ← x3.duration x1
    check 292 (decide (x5 = 1))
    let x6 ← x3.endTime x1
    check 292 (decide (x6 = (ts 2017 10 1 23 59 59 + 999999999)))
    check 292 (decide (x3.label = (.num (0 : Rat))))
    let x7 ← x3.isOnDuty x1 none
    check 292 (!(x7))
    let x8 ← Workshift.new x1 1 none
    let x9 ← x8.startTime x1
    check 292 (decide (x9 = (ts 2017 10 2)))
    let x10 ← x8.duration x1
    check 292 (decide (x10 = 1))
    let x11 ← x8.endTime x1
    check 292 (decide (x11 = (ts 2017 10 2 23 59 59 + 999999999)))
    check 292 (decide (x8.label = (.num (1 : Rat))))
    let x12 ← x8.isOnDuty x1 none
    check 292 (x12)
    let x13 ← Workshift.new x1 2 none
    let x14 ← x13.startTime x1
    check 292 (decide (x14 = (ts 2017 10 3)))
    let x15 ← x13.duration x1
    check 292 (decide (x15 = 1))
    let x16 ← x13.endTime x1
    check 292 (decide (x16 = (ts 2017 10 3 23 59 59 + 999999999)))
    check 292 (decide (x13.label = (.num (1 : Rat))))
    let x17 ← x13.isOnDuty x1 none
    check 292 (x17)
    let x18 ← Workshift.new x1 3 none
    let x19 ← x18.startTime x1
    check 292 (decide (x19 = (ts 2017 10 4)))
    let x20 ← x18.duration x1
    check 292 (decide (x20 = 1))
    let x21 ← x18.endTime x1
    check 292 (decide (x21 = (ts 2017 10 4 23 59 59 + 999999999)))
    check 292 (decide (x18.label = (.num (1 : Rat))))
    let x22 ← x18.isOnDuty x1 none
    check 292 (x22)
    let x23 ← Workshift.new x1 4 none
    let x24 ← x23.startTime x1
    check 292 (decide (x24 = (ts 2017 10 5)))
    let x25 ← x23.duration x1
    check 292 (decide (x25 = 1))
    let x26 ← x23.endTime x1
    check 292 (decide (x26 = (ts 2017 10 5 23 59 59 + 999999999)))
    check 292 (decide (x23.label = (.num (1 : Rat))))
    let x27 ← x23.isOnDuty x1 none
    check 292 (x27)
    let x28 ← Workshift.new x1 5 none
    let x29 ← x28.startTime x1
    check 292 (decide (x29 = (ts 2017 10 6)))
    let x30 ← x28.duration x1
    check 292 (decide (x30 = 1))
    let x31 ← x28.endTime x1
    check 292 (decide (x31 = (ts 2017 10 6 23 59 59 + 999999999)))
    check 292 (decide (x28.label = (.num (1 : Rat))))
    let x32 ← x28.isOnDuty x1 none
    check 292 (x32)
    let x33 ← Workshift.new x1 6 none
    let x34 ← x33.startTime x1
    check 292 (decide (x34 = (ts 2017 10 7)))
    let x35 ← x33.duration x1
    check 292 (decide (x35 = 1))
    let x36 ← x33.endTime x1
    check 292 (decide (x36 = (ts 2017 10 7 23 59 59 + 999999999)))
    check 292 (decide (x33.label = (.num (0 : Rat))))
    let x37 ← x33.isOnDuty x1 none
    check 292 (!(x37))
    let x38 ← Workshift.new x1 7 none
    let x39 ← x38.startTime x1
    check 292 (decide (x39 = (ts 2017 10 8)))
    let x40 ← x38.duration x1
    check 292 (decide (x40 = 1))
    let x41 ← x38.endTime x1
    check 292 (decide (x41 = (ts 2017 10 8 23 59 59 + 999999999)))
    check 292 (decide (x38.label = (.num (0 : Rat))))
    let x42 ← x38.isOnDuty x1 none
    check 292 (!(x42))
    let x43 ← Workshift.new x1 8 none
    let x44 ← x43.startTime x1
    check 292 (decide (x44 = (ts 2017 10 9)))
    let x45 ← x43.duration x1
    check 292 (decide (x45 = 1))
    let x46 ← x43.endTime x1
    check 292 (decide (x46 = (ts 2017 10 9 23 59 59 + 999999999)))
    check 292 (decide (x43.label = (.num (1 : Rat))))
    let x47 ← x43.isOnDuty x1 none
    check 292 (x47)
    let x48 ← Workshift.new x1 9 none
    let x49 ← x48.startTime x1
    check 292 (decide (x49 = (ts 2017 10 10)))
    let x50 ← x48.duration x1
    check 292 (decide (x50 = 1))
    let x51 ← x48.endTime x1
    check 292 (decide (x51 = (ts 2017 10 10 23 59 59 + 999999999)))
    check 292 (decide (x48.label = (.num (1 : Rat))))
    let x52 ← x48.isOnDuty x1 none
    check 292 (x52)
    let x53 ← Workshift.new x1 10 none
    let x54 ← x53.startTime x1
    check 292 (decide (x54 = (ts 2017 10 11)))
    let x55 ← x53.duration x1
    check 292 (decide (x55 = 1))
    let x56 ← x53.endTime x1
    check 292 (decide (x56 = (ts 2017 10 11 23 59 59 + 999999999)))
    check 292 (decide (x53.label = (.num (1 : Rat))))
    let x57 ← x53.isOnDuty x1 none
    check 292 (x57)
    let x58 ← Workshift.new x1 11 none
    let x59 ← x58.startTime x1
    check 292 (decide (x59 = (ts 2017 10 12)))
    let x60 ← x58.duration x1
    check 292 (decide (x60 = 1))
    let x61 ← x58.endTime x1
    check 292 (decide (x61 = (ts 2017 10 12 23 59 59 + 999999999)))
    check 292 (decide (x58.label = (.num (1 : Rat))))
    let x62 ← x58.isOnDuty x1 none
    check 292 (x62)
    pure ()) = true := by decide +kernel

/-- doc/source/making_a_timeboard.rst 318: results at line 321. -/
example : passes (do
    let (x1, x2) ← Timeboard.new (L := V) { freq := (⟨none, .D, by decide⟩ : Freq), start := (ts 2017 10 1), stop := (ts 2017 10 22), layout := .organizer (.marker { each := (⟨none, .W none, by decide⟩ : Freq), ats := [] }) [.pattern (.list [(.i 1), (.i 1), (.i 0), (.i 0), (.i 0), (.i 1), (.i 1)]), .pattern (.list [(.i 0), (.i 0), (.i 1), (.i 1), (.i 1), (.i 0), (.i 0)])], selector := V.truthy, defaultLabel := V.none } (noHeap : Heap V)
    let x3 ← Workshift.new x1 0 none
    let x4 ← x3.startTime x1
    check 321 (decide (x4 = (ts 2017 10 1)))
    let x5 ← x3.duration x1
    check 321 (decide (x5 = 1))
    let x6 ← x3.endTime x1
    check 321 (decide (x6 = (ts 2017 10 1 23 59 59 + 999999999)))
    check 321 (decide (x3.label = (.num (1 : Rat))))
    let x7 ← x3.isOnDuty x1 none
    check 321 (x7)
    let x8 ← Workshift.new x1 1 none
    let x9 ← x8.startTime x1
    check 321 (decide (x9 = (ts 2017 10 2)))
    let x10 ← x8.duration x1
    check 321 (decide (x10 = 1))
    let x11 ← x8.endTime x1
    check 321 (decide (x11 = (ts 2017 10 2 23 59 59 + 999999999)))
    check 321 (decide (x8.label = (.num (0 : Rat))))
    let x12 ← x8.isOnDuty x1 none
    check 321 (!(x12))
    let x13 ← Workshift.new x1 2 none
    let x14 ← x13.startTime x1
    check 321 (decide (x14 = (ts 2017 10 3)))
    let x15 ← x13.duration x1
    check 321 (decide (x15 = 1))
    let x16 ← x13.endTime x1
    check 321 (decide (x16 = (ts 2017 10 3 23 59 59 + 999999999)))
    check 321 (decide (x13.label = (.num (0 : Rat))))
    let x17 ← x13.isOnDuty x1 none
    check 321 (!(x17))
    let x18 ← Workshift.new x1 3 none
    let x19 ← x18.startTime x1
    check 321 (decide (x19 = (ts 2017 10 4)))
    let x20 ← x18.duration x1
    check 321 (decide (x20 = 1))
    let x21 ← x18.endTime x1
    check 321 (decide (x21 = (ts 2017 10 4 23 59 59 + 999999999)))
    check 321 (decide (x18.label = (.num (1 : Rat))))
    let x22 ← x18.isOnDuty x1 none
    check 321 (x22)
    let x23 ← Workshift.new x1 4 none
    let x24 ← x23.startTime x1
    check 321 (decide (x24 = (ts 2017 10 5)))
    let x25 ← x23.duration x1
    check 321 (decide (x25 = 1))
    let x26 ← x23.endTime x1
    check 321 (decide (x26 = (ts 2017 10 5 23 59 59 + 999999999)))
    check 321 (decide (x23.label = (.num (1 : Rat))))
    let x27 ← x23.isOnDuty x1 none
    check 321 (x27)
    let x28 ← Workshift.new x1 5 none
    let x29 ← x28.startTime x1
    check 321 (decide (x29 = (ts 2017 10 6)))
    let x30 ← x28.duration x1
    check 321 (decide (x30 = 1))
    let x31 ← x28.endTime x1
    check 321 (decide (x31 = (ts 2017 10 6 23 59 59 + 999999999)))
    check 321 (decide (x28.label = (.num (1 : Rat))))
    let x32 ← x28.isOnDuty x1 none
    check 321 (x32)
    let x33 ← Workshift.new x1 6 none
    let x34 ← x33.startTime x1
    check 321 (decide (x34 = (ts 2017 10 7)))
    let x35 ← x33.duration x1
    check 321 (decide (x35 = 1))
    let x36 ← x33.endTime x1
    check 321 (decide (x36 = (ts 2017 10 7 23 59 59 + 999999999)))
    check 321 (decide (x33.label = (.num (0 : Rat))))
    let x37 ← x33.isOnDuty x1 none
    check 321 (!(x37))
    let x38 ← Workshift.new x1 7 none
    let x39 ← x38.startTime x1
    check 321 (decide (x39 = (ts 2017 10 8)))
    let x40 ← x38.duration x1
    check 321 (decide (x40 = 1))
    let x41 ← x38.endTime x1
    check 321 (decide (x41 = (ts 2017 10 8 23 59 59 + 999999999)))
    check 321 (decide (x38.label = (.num (0 : Rat))))
    let x42 ← x38.isOnDuty x1 none
    check 321 (!(x42))
    let x43 ← Workshift.new x1 8 none
    let x44 ← x43.startTime x1
    check 321 (decide (x44 = (ts 2017 10 9)))
    let x45 ← x43.duration x1
    check 321 (decide (x45 = 1))
    let x46 ← x43.endTime x1
    check 321 (decide (x46 = (ts 2017 10 9 23 59 59 + 999999999)))
    check 321 (decide (x43.label = (.num (1 : Rat))))
    let x47 ← x43.isOnDuty x1 none
    check 321 (x47)
    let x48 ← Workshift.new x1 9 none
    let x49 ← x48.startTime x1
    check 321 (decide (x49 = (ts 2017 10 10)))
    let x50 ← x48.duration x1
    check 321 (decide (x50 = 1))
    let x51 ← x48.endTime x1
    check 321 (decide (x51 = (ts 2017 10 10 23 59 59 + 999999999)))
    check 321 (decide (x48.label = (.num (1 : Rat))))
    let x52 ← x48.isOnDuty x1 none
    check 321 (x52)
    let x53 ← Workshift.new x1 10 none
    let x54 ← x53.startTime x1
    check 321 (decide (x54 = (ts 2017 10 11)))
    let x55 ← x53.duration x1
    check 321 (decide (x55 = 1))
    let x56 ← x53.endTime x1
    check 321 (decide (x56 = (ts 2017 10 11 23 59 59 + 999999999)))
    check 321 (decide (x53.label = (.num (0 : Rat))))
    let x57 ← x53.isOnDuty x1 none
    check 321 (!(x57))
    let x58 ← Workshift.new x1 11 none
    let x59 ← x58.startTime x1
    check 321 (decide (x59 = (ts 2017 10 12)))
    let x60 ← x58.duration x1
    check 321 (decide (x60 = 1))
    let x61 ← x58.endTime x1
    check 321 (decide (x61 = (ts 2017 10 12 23 59 59 + 999999999)))
    check 321 (decide (x58.label = (.num (0 : Rat))))
    let x62 ← x58.isOnDuty x1 none
    check 321 (!(x62))
    let x63 ← Workshift.new x1 12 none
    let x64 ← x63.startTime x1
    check 321 (decide (x64 = (ts 2017 10 13)))
    let x65 ← x63.duration x1
    check 321 (decide (x65 = 1))
    let x66 ← x63.endTime x1
    check 321 (decide (x66 = (ts 2017 10 13 23 59 59 + 999999999)))
    check 321 (decide (x63.label = (.num (0 : Rat))))
    let x67 ← x63.isOnDuty x1 none
    check 321 (!(x67))
    let x68 ← Workshift.new x1 13 none
    let x69 ← x68.startTime x1
    check 321 (decide (x69 = (ts 2017 10 14)))
    let x70 ← x68.duration x1
    check 321 (decide (x70 = 1))
    let x71 ← x68.endTime x1
    check 321 (decide (x71 = (ts 2017 10 14 23 59 59 + 999999999)))
    check 321 (decide (x68.label = (.num (1 : Rat))))
    let x72 ← x68.isOnDuty x1 none
    check 321 (x72)
    let x73 ← Workshift.new x1 14 none
    let x74 ← x73.startTime x1
    check 321 (decide (x74 = (ts 2017 10 15)))
    let x75 ← x73.duration x1
    check 321 (decide (x75 = 1))
    let x76 ← x73.endTime x1
    check 321 (decide (x76 = (ts 2017 10 15 23 59 59 + 999999999)))
    check 321 (decide (x73.label = (.num (1 : Rat))))
    let x77 ← x73.isOnDuty x1 none
    check 321 (x77)
    let x78 ← Workshift.new x1 15 none
    let x79 ← x78.startTime x1
    check 321 (decide (x79 = (ts 2017 10 16)))
    let x80 ← x78.duration x1
    check 321 (decide (x80 = 1))
    let x81 ← x78.endTime x1
    check 321 (decide (x81 = (ts 2017 10 16 23 59 59 + 999999999)))
    check 321 (decide (x78.label = (.num (0 : Rat))))
    let x82 ← x78.isOnDuty x1 none
    check 321 (!(x82))
    let x83 ← Workshift.new x1 16 none
    let x84 ← x83.startTime x1
    check 321 (decide (x84 = (ts 2017 10 17)))
    let x85 ← x83.duration x1
    check 321 (decide (x85 = 1))
    let x86 ← x83.endTime x1
    check 321 (decide (x86 = (ts 2017 10 17 23 59 59 + 999999999)))
    check 321 (decide (x83.label = (.num (0 : Rat))))
    let x87 ← x83.isOnDuty x1 none
    check 321 (!(x87))
    let x88 ← Workshift.new x1 17 none
    let x89 ← x88.startTime x1
    check 321 (decide (x89 = (ts 2017 10 18)))
    let x90 ← x88.duration x1
    check 321 (decide (x90 = 1))
    let x91 ← x88.endTime x1
    check 321 (decide (x91 = (ts 2017 10 18 23 59 59 + 999999999)))
    check 321 (decide (x88.label = (.num (1 : Rat))))
    let x92 ← x88.isOnDuty x1 none
    check 321 (x92)
    let x93 ← Workshift.new x1 18 none
    let x94 ← x93.startTime x1
    check 321 (decide (x94 = (ts 2017 10 19)))
    let x95 ← x93.duration x1
    check 321 (decide (x95 = 1))
    let x96 ← x93.endTime x1
    check 321 (decide (x96 = (ts 2017 10 19 23 59 59 + 999999999)))
    check 321 (decide (x93.label = (.num (1 : Rat))))
    let x97 ← x93.isOnDuty x1 none
    check 321 (x97)
    let x98 ← Workshift.new x1 19 none
    let x99 ← x98.startTime x1
    check 321 (decide (x99 = (ts 2017 10 20)))
    let x100 ← x98.duration x1
    check 321 (decide (x100 = 1))
    let x101 ← x98.endTime x1
    check 321 (decide (x101 = (ts 2017 10 20 23 59 59 + 999999999)))
    check 321 (decide (x98.label = (.num (1 : Rat))))
    let x102 ← x98.isOnDuty x1 none
    check 321 (x102)
    let x103 ← Workshift.new x1 20 none
    let x104 ← x103.startTime x1
    check 321 (decide (x104 = (ts 2017 10 21)))
    let x105 ← x103.duration x1
    check 321 (decide (x105 = 1))
    let x106 ← x103.endTime x1
    check 321 (decide (x106 = (ts 2017 10 21 23 59 59 + 999999999)))
    check 321 (decide (x103.label = (.num (0 : Rat))))
    let x107 ← x103.isOnDuty x1 none
    check 321 (!(x107))
    let x108 ← Workshift.new x1 21 none
    let x109 ← x108.startTime x1
    check 321 (decide (x109 = (ts 2017 10 22)))
    let x110 ← x108.duration x1
    check 321 (decide (x110 = 1))
    let x111 ← x108.endTime x1
    check 321 (decide (x111 = (ts 2017 10 22 23 59 59 + 999999999)))
    check 321 (decide (x108.label = (.num (0 : Rat))))
    let x112 ← x108.isOnDuty x1 none
    check 321 (!(x112))
    pure ()) = true := by decide +kernel

/-- doc/source/making_a_timeboard.rst 360: results at line 363. -/
example : passes (do
    let (x1, x2) ← Timeboard.new (L := V) { freq := (⟨none, .D, by decide⟩ : Freq), start := (ts 2017 10 1), stop := (ts 2017 10 12), layout := .organizer (.marker { each := (⟨none, .W none, by decide⟩ : Freq), ats := [] }) [.pattern (.list [(.i 1), (.i 0)])], selector := V.truthy, defaultLabel := V.none } (noHeap : Heap V)
    let x3 ← Workshift.new x1 0 none
    let x4 ← x3.startTime x1
    check 363 (decide (x4 = (ts 2017 10 1)))
    let x5 ← x3.duration x1
    check 363 (decide (x5 = 1))
    let x6 ← x3.endTime x1
    check 363 (decide (x6 = (ts 2017 10 1 23 59 59 + 999999999)))
    check 363 (decide (x3.label = (.num (1 : Rat))))
    let x7 ← x3.isOnDuty x1 none
    check 363 (x7)
    let x8 ← Workshift.new x1 1 none
    let x9 ← x8.startTime x1
    check 363 (decide (x9 = (ts 2017 10 2)))
    let x10 ← x8.duration x1
    check 363 (decide (x10 = 1))
    let x11 ← x8.endTime x1
    check 363 (decide (x11 = (ts 2017 10 2 23 59 59 + 999999999)))
    check 363 (decide (x8.label = (.num (1 : Rat))))
    let x12 ← x8.isOnDuty x1 none
    check 363 (x12)
    let x13 ← Workshift.new x1 2 none
    let x14 ← x13.startTime x1
    check 363 (decide (x14 = (ts 2017 10 3)))
    let x15 ← x13.duration x1
    check 363 (decide (x15 = 1))
    let x16 ← x13.endTime x1
    check 363 (decide (x16 = (ts 2017 10 3 23 59 59 + 999999999)))
    check 363 (decide (x13.label = (.num (0 : Rat))))
    let x17 ← x13.isOnDuty x1 none
    check 363 (!(x17))
    let x18 ← Workshift.new x1 3 none
    let x19 ← x18.startTime x1
    check 363 (decide (x19 = (ts 2017 10 4)))
    let x20 ← x18.duration x1
    check 363 (decide (x20 = 1))
    let x21 ← x18.endTime x1
    check 363 (decide (x21 = (ts 2017 10 4 23 59 59 + 999999999)))
    check 363 (decide (x18.label = (.num (1 : Rat))))
    let x22 ← x18.isOnDuty x1 none
    check 363 (x22)
    let x23 ← Workshift.new x1 4 none
    let x24 ← x23.startTime x1
    check 363 (decide (x24 = (ts 2017 10 5)))
    let x25 ← x23.duration x1
    check 363 (decide (x25 = 1))
    let x26 ← x23.endTime x1
    check 363 (decide (x26 = (ts 2017 10 5 23 59 59 + 999999999)))
    check 363 (decide (x23.label = (.num (0 : Rat))))
    let x27 ← x23.isOnDuty x1 none
    check 363 (!(x27))
    let x28 ← Workshift.new x1 5 none
    let x29 ← x28.startTime x1
    check 363 (decide (x29 = (ts 2017 10 6)))
    let x30 ← x28.duration x1
    check 363 (decide (x30 = 1))
    let x31 ← x28.endTime x1
    check 363 (decide (x31 = (ts 2017 10 6 23 59 59 + 999999999)))
    check 363 (decide (x28.label = (.num (1 : Rat))))
    let x32 ← x28.isOnDuty x1 none
    check 363 (x32)
    let x33 ← Workshift.new x1 6 none
    let x34 ← x33.startTime x1
    check 363 (decide (x34 = (ts 2017 10 7)))
    let x35 ← x33.duration x1
    check 363 (decide (x35 = 1))
    let x36 ← x33.endTime x1
    check 363 (decide (x36 = (ts 2017 10 7 23 59 59 + 999999999)))
    check 363 (decide (x33.label = (.num (0 : Rat))))
    let x37 ← x33.isOnDuty x1 none
    check 363 (!(x37))
    let x38 ← Workshift.new x1 7 none
    let x39 ← x38.startTime x1
    check 363 (decide (x39 = (ts 2017 10 8)))
    let x40 ← x38.duration x1
    check 363 (decide (x40 = 1))
    let x41 ← x38.endTime x1
    check 363 (decide (x41 = (ts 2017 10 8 23 59 59 + 999999999)))
    check 363 (decide (x38.label = (.num (1 : Rat))))
    let x42 ← x38.isOnDuty x1 none
    check 363 (x42)
    let x43 ← Workshift.new x1 8 none
    let x44 ← x43.startTime x1
    check 363 (decide (x44 = (ts 2017 10 9)))
    let x45 ← x43.duration x1
    check 363 (decide (x45 = 1))
    let x46 ← x43.endTime x1
    check 363 (decide (x46 = (ts 2017 10 9 23 59 59 + 999999999)))
    check 363 (decide (x43.label = (.num (1 : Rat))))
    let x47 ← x43.isOnDuty x1 none
    check 363 (x47)
    let x48 ← Workshift.new x1 9 none
    let x49 ← x48.startTime x1
    check 363 (decide (x49 = (ts 2017 10 10)))
    let x50 ← x48.duration x1
    check 363 (decide (x50 = 1))
    let x51 ← x48.endTime x1
    check 363 (decide (x51 = (ts 2017 10 10 23 59 59 + 999999999)))
    check 363 (decide (x48.label = (.num (0 : Rat))))
    let x52 ← x48.isOnDuty x1 none
    check 363 (!(x52))
    let x53 ← Workshift.new x1 10 none
    let x54 ← x53.startTime x1
    check 363 (decide (x54 = (ts 2017 10 11)))
    let x55 ← x53.duration x1
    check 363 (decide (x55 = 1))
    let x56 ← x53.endTime x1
    check 363 (decide (x56 = (ts 2017 10 11 23 59 59 + 999999999)))
    check 363 (decide (x53.label = (.num (1 : Rat))))
    let x57 ← x53.isOnDuty x1 none
    check 363 (x57)
    let x58 ← Workshift.new x1 11 none
    let x59 ← x58.startTime x1
    check 363 (decide (x59 = (ts 2017 10 12)))
    let x60 ← x58.duration x1
    check 363 (decide (x60 = 1))
    let x61 ← x58.endTime x1
    check 363 (decide (x61 = (ts 2017 10 12 23 59 59 + 999999999)))
    check 363 (decide (x58.label = (.num (0 : Rat))))
    let x62 ← x58.isOnDuty x1 none
    check 363 (!(x62))
    pure ()) = true := by decide +kernel

/- doc/source/making_a_timeboard.rst 393: results at line 403. -/
#guard passes (do
    let (x1, x2) ← Timeboard.new (L := V) { freq := (⟨none, .D, by decide⟩ : Freq), start := (ts 2015 11 1), stop := (ts 2017 10 31), layout := .organizer (.marker { each := (⟨some 6, .M, by decide⟩ : Freq), ats := [] }) [.organizer (.marker { each := (⟨none, .W none, by decide⟩ : Freq), ats := [] }) [.pattern (.list [(.i 0), (.i 0), (.i 1), (.i 1), (.i 0), (.i 0), (.i 0)])], .organizer (.marker { each := (⟨none, .W none, by decide⟩ : Freq), ats := [] }) [.pattern (.list [(.i 0), (.i 1), (.i 1), (.i 1), (.i 1), (.i 1), (.i 1)])]], selector := V.truthy, defaultLabel := V.none } (noHeap : Heap V)
    let x3 ← Workshift.new x1 0 none
    let x4 ← x3.startTime x1
    check 403 (decide (x4 = (ts 2015 11 1)))
    let x5 ← x3.duration x1
    check 403 (decide (x5 = 1))
    let x6 ← x3.endTime x1
    check 403 (decide (x6 = (ts 2015 11 1 23 59 59 + 999999999)))
    check 403 (decide (x3.label = (.num (0 : Rat))))
    let x7 ← x3.isOnDuty x1 none
    check 403 (!(x7))
    let x8 ← Workshift.new x1 1 none
    let x9 ← x8.startTime x1
    check 403 (decide (x9 = (ts 2015 11 2)))
    let x10 ← x8.duration x1
    check 403 (decide (x10 = 1))
    let x11 ← x8.endTime x1
    check 403 (decide (x11 = (ts 2015 11 2 23 59 59 + 999999999)))
    check 403 (decide (x8.label = (.num (0 : Rat))))
    let x12 ← x8.isOnDuty x1 none
    check 403 (!(x12))
    let x13 ← Workshift.new x1 2 none
    let x14 ← x13.startTime x1
    check 403 (decide (x14 = (ts 2015 11 3)))
    let x15 ← x13.duration x1
    check 403 (decide (x15 = 1))
    let x16 ← x13.endTime x1
    check 403 (decide (x16 = (ts 2015 11 3 23 59 59 + 999999999)))
    check 403 (decide (x13.label = (.num (0 : Rat))))
    let x17 ← x13.isOnDuty x1 none
    check 403 (!(x17))
    let x18 ← Workshift.new x1 3 none
    let x19 ← x18.startTime x1
    check 403 (decide (x19 = (ts 2015 11 4)))
    let x20 ← x18.duration x1
    check 403 (decide (x20 = 1))
    let x21 ← x18.endTime x1
    check 403 (decide (x21 = (ts 2015 11 4 23 59 59 + 999999999)))
    check 403 (decide (x18.label = (.num (1 : Rat))))
    let x22 ← x18.isOnDuty x1 none
    check 403 (x22)
    let x23 ← Workshift.new x1 4 none
    let x24 ← x23.startTime x1
    check 403 (decide (x24 = (ts 2015 11 5)))
    let x25 ← x23.duration x1
    check 403 (decide (x25 = 1))
    let x26 ← x23.endTime x1
    check 403 (decide (x26 = (ts 2015 11 5 23 59 59 + 999999999)))
    check 403 (decide (x23.label = (.num (1 : Rat))))
    let x27 ← x23.isOnDuty x1 none
    check 403 (x27)
    let x28 ← Workshift.new x1 5 none
    let x29 ← x28.startTime x1
    check 403 (decide (x29 = (ts 2015 11 6)))
    let x30 ← x28.duration x1
    check 403 (decide (x30 = 1))
    let x31 ← x28.endTime x1
    check 403 (decide (x31 = (ts 2015 11 6 23 59 59 + 999999999)))
    check 403 (decide (x28.label = (.num (0 : Rat))))
    let x32 ← x28.isOnDuty x1 none
    check 403 (!(x32))
    let x33 ← Workshift.new x1 6 none
    let x34 ← x33.startTime x1
    check 403 (decide (x34 = (ts 2015 11 7)))
    let x35 ← x33.duration x1
    check 403 (decide (x35 = 1))
    let x36 ← x33.endTime x1
    check 403 (decide (x36 = (ts 2015 11 7 23 59 59 + 999999999)))
    check 403 (decide (x33.label = (.num (0 : Rat))))
    let x37 ← x33.isOnDuty x1 none
    check 403 (!(x37))
    let x38 ← Workshift.new x1 7 none
    let x39 ← x38.startTime x1
    check 403 (decide (x39 = (ts 2015 11 8)))
    let x40 ← x38.duration x1
    check 403 (decide (x40 = 1))
    let x41 ← x38.endTime x1
    check 403 (decide (x41 = (ts 2015 11 8 23 59 59 + 999999999)))
    check 403 (decide (x38.label = (.num (0 : Rat))))
    let x42 ← x38.isOnDuty x1 none
    check 403 (!(x42))
    let x43 ← Workshift.new x1 8 none
    let x44 ← x43.startTime x1
    check 403 (decide (x44 = (ts 2015 11 9)))
    let x45 ← x43.duration x1
    check 403 (decide (x45 = 1))
    let x46 ← x43.endTime x1
    check 403 (decide (x46 = (ts 2015 11 9 23 59 59 + 999999999)))
    check 403 (decide (x43.label = (.num (0 : Rat))))
    let x47 ← x43.isOnDuty x1 none
    check 403 (!(x47))
    let x48 ← Workshift.new x1 9 none
    let x49 ← x48.startTime x1
    check 403 (decide (x49 = (ts 2015 11 10)))
    let x50 ← x48.duration x1
    check 403 (decide (x50 = 1))
    let x51 ← x48.endTime x1
    check 403 (decide (x51 = (ts 2015 11 10 23 59 59 + 999999999)))
    check 403 (decide (x48.label = (.num (0 : Rat))))
    let x52 ← x48.isOnDuty x1 none
    check 403 (!(x52))
    let x53 ← Workshift.new x1 10 none
    let x54 ← x53.startTime x1
    check 403 (decide (x54 = (ts 2015 11 11)))
    let x55 ← x53.duration x1
    check 403 (decide (x55 = 1))
    let x56 ← x53.endTime x1
    check 403 (decide (x56 = (ts 2015 11 11 23 59 59 + 999999999)))
    check 403 (decide (x53.label = (.num (1 : Rat))))
    let x57 ← x53.isOnDuty x1 none
    check 403 (x57)
    let x58 ← Workshift.new x1 11 none
    let x59 ← x58.startTime x1
    check 403 (decide (x59 = (ts 2015 11 12)))
    let x60 ← x58.duration x1
    check 403 (decide (x60 = 1))
    let x61 ← x58.endTime x1
    check 403 (decide (x61 = (ts 2015 11 12 23 59 59 + 999999999)))
    check 403 (decide (x58.label = (.num (1 : Rat))))
    let x62 ← x58.isOnDuty x1 none
    check 403 (x62)
    let x63 ← Workshift.new x1 12 none
    let x64 ← x63.startTime x1
    check 403 (decide (x64 = (ts 2015 11 13)))
    let x65 ← x63.duration x1
    check 403 (decide (x65 = 1))
    let x66 ← x63.endTime x1
    check 403 (decide (x66 = (ts 2015 11 13 23 59 59 + 999999999)))
    check 403 (decide (x63.label = (.num (0 : Rat))))
    let x67 ← x63.isOnDuty x1 none
    check 403 (!(x67))
    let x68 ← Workshift.new x1 13 none
    let x69 ← x68.startTime x1
    check 403 (decide (x69 = (ts 2015 11 14)))
    let x70 ← x68.duration x1
    check 403 (decide (x70 = 1))
    let x71 ← x68.endTime x1
    check 403 (decide (x71 = (ts 2015 11 14 23 59 59 + 999999999)))
    check 403 (decide (x68.label = (.num (0 : Rat))))
    let x72 ← x68.isOnDuty x1 none
    check 403 (!(x72))
    let x73 ← Workshift.new x1 14 none
    let x74 ← x73.startTime x1
    check 403 (decide (x74 = (ts 2015 11 15)))
    let x75 ← x73.duration x1
    check 403 (decide (x75 = 1))
    let x76 ← x73.endTime x1
    check 403 (decide (x76 = (ts 2015 11 15 23 59 59 + 999999999)))
    check 403 (decide (x73.label = (.num (0 : Rat))))
    let x77 ← x73.isOnDuty x1 none
    check 403 (!(x77))
    let x78 ← Workshift.new x1 715 none
    let x79 ← x78.startTime x1
    check 403 (decide (x79 = (ts 2017 10 16)))
    let x80 ← x78.duration x1
    check 403 (decide (x80 = 1))
    let x81 ← x78.endTime x1
    check 403 (decide (x81 = (ts 2017 10 16 23 59 59 + 999999999)))
    check 403 (decide (x78.label = (.num (0 : Rat))))
    let x82 ← x78.isOnDuty x1 none
    check 403 (!(x82))
    let x83 ← Workshift.new x1 716 none
    let x84 ← x83.startTime x1
    check 403 (decide (x84 = (ts 2017 10 17)))
    let x85 ← x83.duration x1
    check 403 (decide (x85 = 1))
    let x86 ← x83.endTime x1
    check 403 (decide (x86 = (ts 2017 10 17 23 59 59 + 999999999)))
    check 403 (decide (x83.label = (.num (1 : Rat))))
    let x87 ← x83.isOnDuty x1 none
    check 403 (x87)
    let x88 ← Workshift.new x1 717 none
    let x89 ← x88.startTime x1
    check 403 (decide (x89 = (ts 2017 10 18)))
    let x90 ← x88.duration x1
    check 403 (decide (x90 = 1))
    let x91 ← x88.endTime x1
    check 403 (decide (x91 = (ts 2017 10 18 23 59 59 + 999999999)))
    check 403 (decide (x88.label = (.num (1 : Rat))))
    let x92 ← x88.isOnDuty x1 none
    check 403 (x92)
    let x93 ← Workshift.new x1 718 none
    let x94 ← x93.startTime x1
    check 403 (decide (x94 = (ts 2017 10 19)))
    let x95 ← x93.duration x1
    check 403 (decide (x95 = 1))
    let x96 ← x93.endTime x1
    check 403 (decide (x96 = (ts 2017 10 19 23 59 59 + 999999999)))
    check 403 (decide (x93.label = (.num (1 : Rat))))
    let x97 ← x93.isOnDuty x1 none
    check 403 (x97)
    let x98 ← Workshift.new x1 719 none
    let x99 ← x98.startTime x1
    check 403 (decide (x99 = (ts 2017 10 20)))
    let x100 ← x98.duration x1
    check 403 (decide (x100 = 1))
    let x101 ← x98.endTime x1
    check 403 (decide (x101 = (ts 2017 10 20 23 59 59 + 999999999)))
    check 403 (decide (x98.label = (.num (1 : Rat))))
    let x102 ← x98.isOnDuty x1 none
    check 403 (x102)
    let x103 ← Workshift.new x1 720 none
    let x104 ← x103.startTime x1
    check 403 (decide (x104 = (ts 2017 10 21)))
    let x105 ← x103.duration x1
    check 403 (decide (x105 = 1))
    let x106 ← x103.endTime x1
    check 403 (decide (x106 = (ts 2017 10 21 23 59 59 + 999999999)))
    check 403 (decide (x103.label = (.num (1 : Rat))))
    let x107 ← x103.isOnDuty x1 none
    check 403 (x107)
    let x108 ← Workshift.new x1 721 none
    let x109 ← x108.startTime x1
    check 403 (decide (x109 = (ts 2017 10 22)))
    let x110 ← x108.duration x1
    check 403 (decide (x110 = 1))
    let x111 ← x108.endTime x1
    check 403 (decide (x111 = (ts 2017 10 22 23 59 59 + 999999999)))
    check 403 (decide (x108.label = (.num (1 : Rat))))
    let x112 ← x108.isOnDuty x1 none
    check 403 (x112)
    let x113 ← Workshift.new x1 722 none
    let x114 ← x113.startTime x1
    check 403 (decide (x114 = (ts 2017 10 23)))
    let x115 ← x113.duration x1
    check 403 (decide (x115 = 1))
    let x116 ← x113.endTime x1
    check 403 (decide (x116 = (ts 2017 10 23 23 59 59 + 999999999)))
    check 403 (decide (x113.label = (.num (0 : Rat))))
    let x117 ← x113.isOnDuty x1 none
    check 403 (!(x117))
    let x118 ← Workshift.new x1 723 none
    let x119 ← x118.startTime x1
    check 403 (decide (x119 = (ts 2017 10 24)))
    let x120 ← x118.duration x1
    check 403 (decide (x120 = 1))
    let x121 ← x118.endTime x1
    check 403 (decide (x121 = (ts 2017 10 24 23 59 59 + 999999999)))
    check 403 (decide (x118.label = (.num (1 : Rat))))
    let x122 ← x118.isOnDuty x1 none
    check 403 (x122)
    let x123 ← Workshift.new x1 724 none
    let x124 ← x123.startTime x1
    check 403 (decide (x124 = (ts 2017 10 25)))
    let x125 ← x123.duration x1
    check 403 (decide (x125 = 1))
    let x126 ← x123.endTime x1
    check 403 (decide (x126 = (ts 2017 10 25 23 59 59 + 999999999)))
    check 403 (decide (x123.label = (.num (1 : Rat))))
    let x127 ← x123.isOnDuty x1 none
    check 403 (x127)
    let x128 ← Workshift.new x1 725 none
    let x129 ← x128.startTime x1
    check 403 (decide (x129 = (ts 2017 10 26)))
    let x130 ← x128.duration x1
    check 403 (decide (x130 = 1))
    let x131 ← x128.endTime x1
    check 403 (decide (x131 = (ts 2017 10 26 23 59 59 + 999999999)))
    check 403 (decide (x128.label = (.num (1 : Rat))))
    let x132 ← x128.isOnDuty x1 none
    check 403 (x132)
    let x133 ← Workshift.new x1 726 none
    let x134 ← x133.startTime x1
    check 403 (decide (x134 = (ts 2017 10 27)))
    let x135 ← x133.duration x1
    check 403 (decide (x135 = 1))
    let x136 ← x133.endTime x1
    check 403 (decide (x136 = (ts 2017 10 27 23 59 59 + 999999999)))
    check 403 (decide (x133.label = (.num (1 : Rat))))
    let x137 ← x133.isOnDuty x1 none
    check 403 (x137)
    let x138 ← Workshift.new x1 727 none
    let x139 ← x138.startTime x1
    check 403 (decide (x139 = (ts 2017 10 28)))
    let x140 ← x138.duration x1
    check 403 (decide (x140 = 1))
    let x141 ← x138.endTime x1
    check 403 (decide (x141 = (ts 2017 10 28 23 59 59 + 999999999)))
    check 403 (decide (x138.label = (.num (1 : Rat))))
    let x142 ← x138.isOnDuty x1 none
    check 403 (x142)
    let x143 ← Workshift.new x1 728 none
    let x144 ← x143.startTime x1
    check 403 (decide (x144 = (ts 2017 10 29)))
    let x145 ← x143.duration x1
    check 403 (decide (x145 = 1))
    let x146 ← x143.endTime x1
    check 403 (decide (x146 = (ts 2017 10 29 23 59 59 + 999999999)))
    check 403 (decide (x143.label = (.num (1 : Rat))))
    let x147 ← x143.isOnDuty x1 none
    check 403 (x147)
    let x148 ← Workshift.new x1 729 none
    let x149 ← x148.startTime x1
    check 403 (decide (x149 = (ts 2017 10 30)))
    let x150 ← x148.duration x1
    check 403 (decide (x150 = 1))
    let x151 ← x148.endTime x1
    check 403 (decide (x151 = (ts 2017 10 30 23 59 59 + 999999999)))
    check 403 (decide (x148.label = (.num (0 : Rat))))
    let x152 ← x148.isOnDuty x1 none
    check 403 (!(x152))
    let x153 ← Workshift.new x1 730 none
    let x154 ← x153.startTime x1
    check 403 (decide (x154 = (ts 2017 10 31)))
    let x155 ← x153.duration x1
    check 403 (decide (x155 = 1))
    let x156 ← x153.endTime x1
    check 403 (decide (x156 = (ts 2017 10 31 23 59 59 + 999999999)))
    check 403 (decide (x153.label = (.num (1 : Rat))))
    let x157 ← x153.isOnDuty x1 none
    check 403 (x157)
    let x158 ← x1.callN none none none true "11" none
    let x159 ← asIvl x158
    check 403 (decide (x159.len = 731))
    pure ())

/- doc/source/making_a_timeboard.rst 489: results at lines 495, 522. -/
#guard passes (do
    let (x1, x2) ← Timeboard.new (L := V) { freq := (⟨none, .D, by decide⟩ : Freq), start := (ts 2015 1 1), stop := (ts 2017 12 31), layout := .organizer (.marker { each := (⟨none, .A none, by decide⟩ : Freq), ats := [fromStartOfEach (some { months := 4 }), fromStartOfEach (some { months := 8, days := 15 })] }) [.organizer (.marker { each := (⟨none, .W none, by decide⟩ : Freq), ats := [] }) [.pattern (.list [(.i 0), (.i 0), (.i 1), (.i 1), (.i 0), (.i 0), (.i 0)])], .organizer (.marker { each := (⟨none, .W none, by decide⟩ : Freq), ats := [] }) [.pattern (.list [(.i 0), (.i 1), (.i 1), (.i 1), (.i 1), (.i 1), (.i 1)])]], selector := V.truthy, defaultLabel := V.none } (noHeap : Heap V)
    let x3 ← x1.call1 (.pair (some (ts 2017 4 20)) (some (ts 2017 5 10)))
    let x4 ← asIvl x3
    check 495 (decide ((x4.lo, x4.hi) = (840, 860)))
    let x5 ← x1.call1 (.pair (some (ts 2017 4 20)) (some (ts 2017 5 10)))
    let x6 ← asIvl x5
    check 495 (decide (x6.schedule.name = "on_duty"))
    let x7 ← x1.call1 (.pair (some (ts 2017 4 20)) (some (ts 2017 5 10)))
    let x8 ← asIvl x7
    check 495 (decide (x8.len = 21))
    let x9 ← Workshift.new x1 840 none
    let x10 ← x9.startTime x1
    check 495 (decide (x10 = (ts 2017 4 20)))
    let x11 ← x9.duration x1
    check 495 (decide (x11 = 1))
    let x12 ← x9.endTime x1
    check 495 (decide (x12 = (ts 2017 4 20 23 59 59 + 999999999)))
    check 495 (decide (x9.label = (.num (1 : Rat))))
    let x13 ← x9.isOnDuty x1 none
    check 495 (x13)
    let x14 ← Workshift.new x1 841 none
    let x15 ← x14.startTime x1
    check 495 (decide (x15 = (ts 2017 4 21)))
    let x16 ← x14.duration x1
    check 495 (decide (x16 = 1))
    let x17 ← x14.endTime x1
    check 495 (decide (x17 = (ts 2017 4 21 23 59 59 + 999999999)))
    check 495 (decide (x14.label = (.num (0 : Rat))))
    let x18 ← x14.isOnDuty x1 none
    check 495 (!(x18))
    let x19 ← Workshift.new x1 842 none
    let x20 ← x19.startTime x1
    check 495 (decide (x20 = (ts 2017 4 22)))
    let x21 ← x19.duration x1
    check 495 (decide (x21 = 1))
    let x22 ← x19.endTime x1
    check 495 (decide (x22 = (ts 2017 4 22 23 59 59 + 999999999)))
    check 495 (decide (x19.label = (.num (0 : Rat))))
    let x23 ← x19.isOnDuty x1 none
    check 495 (!(x23))
    let x24 ← Workshift.new x1 843 none
    let x25 ← x24.startTime x1
    check 495 (decide (x25 = (ts 2017 4 23)))
    let x26 ← x24.duration x1
    check 495 (decide (x26 = 1))
    let x27 ← x24.endTime x1
    check 495 (decide (x27 = (ts 2017 4 23 23 59 59 + 999999999)))
    check 495 (decide (x24.label = (.num (0 : Rat))))
    let x28 ← x24.isOnDuty x1 none
    check 495 (!(x28))
    let x29 ← Workshift.new x1 844 none
    let x30 ← x29.startTime x1
    check 495 (decide (x30 = (ts 2017 4 24)))
    let x31 ← x29.duration x1
    check 495 (decide (x31 = 1))
    let x32 ← x29.endTime x1
    check 495 (decide (x32 = (ts 2017 4 24 23 59 59 + 999999999)))
    check 495 (decide (x29.label = (.num (0 : Rat))))
    let x33 ← x29.isOnDuty x1 none
    check 495 (!(x33))
    let x34 ← Workshift.new x1 845 none
    let x35 ← x34.startTime x1
    check 495 (decide (x35 = (ts 2017 4 25)))
    let x36 ← x34.duration x1
    check 495 (decide (x36 = 1))
    let x37 ← x34.endTime x1
    check 495 (decide (x37 = (ts 2017 4 25 23 59 59 + 999999999)))
    check 495 (decide (x34.label = (.num (0 : Rat))))
    let x38 ← x34.isOnDuty x1 none
    check 495 (!(x38))
    let x39 ← Workshift.new x1 846 none
    let x40 ← x39.startTime x1
    check 495 (decide (x40 = (ts 2017 4 26)))
    let x41 ← x39.duration x1
    check 495 (decide (x41 = 1))
    let x42 ← x39.endTime x1
    check 495 (decide (x42 = (ts 2017 4 26 23 59 59 + 999999999)))
    check 495 (decide (x39.label = (.num (1 : Rat))))
    let x43 ← x39.isOnDuty x1 none
    check 495 (x43)
    let x44 ← Workshift.new x1 847 none
    let x45 ← x44.startTime x1
    check 495 (decide (x45 = (ts 2017 4 27)))
    let x46 ← x44.duration x1
    check 495 (decide (x46 = 1))
    let x47 ← x44.endTime x1
    check 495 (decide (x47 = (ts 2017 4 27 23 59 59 + 999999999)))
    check 495 (decide (x44.label = (.num (1 : Rat))))
    let x48 ← x44.isOnDuty x1 none
    check 495 (x48)
    let x49 ← Workshift.new x1 848 none
    let x50 ← x49.startTime x1
    check 495 (decide (x50 = (ts 2017 4 28)))
    let x51 ← x49.duration x1
    check 495 (decide (x51 = 1))
    let x52 ← x49.endTime x1
    check 495 (decide (x52 = (ts 2017 4 28 23 59 59 + 999999999)))
    check 495 (decide (x49.label = (.num (0 : Rat))))
    let x53 ← x49.isOnDuty x1 none
    check 495 (!(x53))
    let x54 ← Workshift.new x1 849 none
    let x55 ← x54.startTime x1
    check 495 (decide (x55 = (ts 2017 4 29)))
    let x56 ← x54.duration x1
    check 495 (decide (x56 = 1))
    let x57 ← x54.endTime x1
    check 495 (decide (x57 = (ts 2017 4 29 23 59 59 + 999999999)))
    check 495 (decide (x54.label = (.num (0 : Rat))))
    let x58 ← x54.isOnDuty x1 none
    check 495 (!(x58))
    let x59 ← Workshift.new x1 850 none
    let x60 ← x59.startTime x1
    check 495 (decide (x60 = (ts 2017 4 30)))
    let x61 ← x59.duration x1
    check 495 (decide (x61 = 1))
    let x62 ← x59.endTime x1
    check 495 (decide (x62 = (ts 2017 4 30 23 59 59 + 999999999)))
    check 495 (decide (x59.label = (.num (0 : Rat))))
    let x63 ← x59.isOnDuty x1 none
    check 495 (!(x63))
    let x64 ← Workshift.new x1 851 none
    let x65 ← x64.startTime x1
    check 495 (decide (x65 = (ts 2017 5 1)))
    let x66 ← x64.duration x1
    check 495 (decide (x66 = 1))
    let x67 ← x64.endTime x1
    check 495 (decide (x67 = (ts 2017 5 1 23 59 59 + 999999999)))
    check 495 (decide (x64.label = (.num (0 : Rat))))
    let x68 ← x64.isOnDuty x1 none
    check 495 (!(x68))
    let x69 ← Workshift.new x1 852 none
    let x70 ← x69.startTime x1
    check 495 (decide (x70 = (ts 2017 5 2)))
    let x71 ← x69.duration x1
    check 495 (decide (x71 = 1))
    let x72 ← x69.endTime x1
    check 495 (decide (x72 = (ts 2017 5 2 23 59 59 + 999999999)))
    check 495 (decide (x69.label = (.num (1 : Rat))))
    let x73 ← x69.isOnDuty x1 none
    check 495 (x73)
    let x74 ← Workshift.new x1 853 none
    let x75 ← x74.startTime x1
    check 495 (decide (x75 = (ts 2017 5 3)))
    let x76 ← x74.duration x1
    check 495 (decide (x76 = 1))
    let x77 ← x74.endTime x1
    check 495 (decide (x77 = (ts 2017 5 3 23 59 59 + 999999999)))
    check 495 (decide (x74.label = (.num (1 : Rat))))
    let x78 ← x74.isOnDuty x1 none
    check 495 (x78)
    let x79 ← Workshift.new x1 854 none
    let x80 ← x79.startTime x1
    check 495 (decide (x80 = (ts 2017 5 4)))
    let x81 ← x79.duration x1
    check 495 (decide (x81 = 1))
    let x82 ← x79.endTime x1
    check 495 (decide (x82 = (ts 2017 5 4 23 59 59 + 999999999)))
    check 495 (decide (x79.label = (.num (1 : Rat))))
    let x83 ← x79.isOnDuty x1 none
    check 495 (x83)
    let x84 ← Workshift.new x1 855 none
    let x85 ← x84.startTime x1
    check 495 (decide (x85 = (ts 2017 5 5)))
    let x86 ← x84.duration x1
    check 495 (decide (x86 = 1))
    let x87 ← x84.endTime x1
    check 495 (decide (x87 = (ts 2017 5 5 23 59 59 + 999999999)))
    check 495 (decide (x84.label = (.num (1 : Rat))))
    let x88 ← x84.isOnDuty x1 none
    check 495 (x88)
    let x89 ← Workshift.new x1 856 none
    let x90 ← x89.startTime x1
    check 495 (decide (x90 = (ts 2017 5 6)))
    let x91 ← x89.duration x1
    check 495 (decide (x91 = 1))
    let x92 ← x89.endTime x1
    check 495 (decide (x92 = (ts 2017 5 6 23 59 59 + 999999999)))
    check 495 (decide (x89.label = (.num (1 : Rat))))
    let x93 ← x89.isOnDuty x1 none
    check 495 (x93)
    let x94 ← Workshift.new x1 857 none
    let x95 ← x94.startTime x1
    check 495 (decide (x95 = (ts 2017 5 7)))
    let x96 ← x94.duration x1
    check 495 (decide (x96 = 1))
    let x97 ← x94.endTime x1
    check 495 (decide (x97 = (ts 2017 5 7 23 59 59 + 999999999)))
    check 495 (decide (x94.label = (.num (1 : Rat))))
    let x98 ← x94.isOnDuty x1 none
    check 495 (x98)
    let x99 ← Workshift.new x1 858 none
    let x100 ← x99.startTime x1
    check 495 (decide (x100 = (ts 2017 5 8)))
    let x101 ← x99.duration x1
    check 495 (decide (x101 = 1))
    let x102 ← x99.endTime x1
    check 495 (decide (x102 = (ts 2017 5 8 23 59 59 + 999999999)))
    check 495 (decide (x99.label = (.num (0 : Rat))))
    let x103 ← x99.isOnDuty x1 none
    check 495 (!(x103))
    let x104 ← Workshift.new x1 859 none
    let x105 ← x104.startTime x1
    check 495 (decide (x105 = (ts 2017 5 9)))
    let x106 ← x104.duration x1
    check 495 (decide (x106 = 1))
    let x107 ← x104.endTime x1
    check 495 (decide (x107 = (ts 2017 5 9 23 59 59 + 999999999)))
    check 495 (decide (x104.label = (.num (1 : Rat))))
    let x108 ← x104.isOnDuty x1 none
    check 495 (x108)
    let x109 ← Workshift.new x1 860 none
    let x110 ← x109.startTime x1
    check 495 (decide (x110 = (ts 2017 5 10)))
    let x111 ← x109.duration x1
    check 495 (decide (x111 = 1))
    let x112 ← x109.endTime x1
    check 495 (decide (x112 = (ts 2017 5 10 23 59 59 + 999999999)))
    check 495 (decide (x109.label = (.num (1 : Rat))))
    let x113 ← x109.isOnDuty x1 none
    check 495 (x113)
    let x114 ← x1.call1 (.pair (some (ts 2017 9 4)) (some (ts 2017 9 24)))
    let x115 ← asIvl x114
    check 522 (decide ((x115.lo, x115.hi) = (977, 997)))
    let x116 ← x1.call1 (.pair (some (ts 2017 9 4)) (some (ts 2017 9 24)))
    let x117 ← asIvl x116
    check 522 (decide (x117.schedule.name = "on_duty"))
    let x118 ← x1.call1 (.pair (some (ts 2017 9 4)) (some (ts 2017 9 24)))
    let x119 ← asIvl x118
    check 522 (decide (x119.len = 21))
    let x120 ← Workshift.new x1 977 none
    let x121 ← x120.startTime x1
    check 522 (decide (x121 = (ts 2017 9 4)))
    let x122 ← x120.duration x1
    check 522 (decide (x122 = 1))
    let x123 ← x120.endTime x1
    check 522 (decide (x123 = (ts 2017 9 4 23 59 59 + 999999999)))
    check 522 (decide (x120.label = (.num (0 : Rat))))
    let x124 ← x120.isOnDuty x1 none
    check 522 (!(x124))
    let x125 ← Workshift.new x1 978 none
    let x126 ← x125.startTime x1
    check 522 (decide (x126 = (ts 2017 9 5)))
    let x127 ← x125.duration x1
    check 522 (decide (x127 = 1))
    let x128 ← x125.endTime x1
    check 522 (decide (x128 = (ts 2017 9 5 23 59 59 + 999999999)))
    check 522 (decide (x125.label = (.num (1 : Rat))))
    let x129 ← x125.isOnDuty x1 none
    check 522 (x129)
    let x130 ← Workshift.new x1 979 none
    let x131 ← x130.startTime x1
    check 522 (decide (x131 = (ts 2017 9 6)))
    let x132 ← x130.duration x1
    check 522 (decide (x132 = 1))
    let x133 ← x130.endTime x1
    check 522 (decide (x133 = (ts 2017 9 6 23 59 59 + 999999999)))
    check 522 (decide (x130.label = (.num (1 : Rat))))
    let x134 ← x130.isOnDuty x1 none
    check 522 (x134)
    let x135 ← Workshift.new x1 980 none
    let x136 ← x135.startTime x1
    check 522 (decide (x136 = (ts 2017 9 7)))
    let x137 ← x135.duration x1
    check 522 (decide (x137 = 1))
    let x138 ← x135.endTime x1
    check 522 (decide (x138 = (ts 2017 9 7 23 59 59 + 999999999)))
    check 522 (decide (x135.label = (.num (1 : Rat))))
    let x139 ← x135.isOnDuty x1 none
    check 522 (x139)
    let x140 ← Workshift.new x1 981 none
    let x141 ← x140.startTime x1
    check 522 (decide (x141 = (ts 2017 9 8)))
    let x142 ← x140.duration x1
    check 522 (decide (x142 = 1))
    let x143 ← x140.endTime x1
    check 522 (decide (x143 = (ts 2017 9 8 23 59 59 + 999999999)))
    check 522 (decide (x140.label = (.num (1 : Rat))))
    let x144 ← x140.isOnDuty x1 none
    check 522 (x144)
    let x145 ← Workshift.new x1 982 none
    let x146 ← x145.startTime x1
    check 522 (decide (x146 = (ts 2017 9 9)))
    let x147 ← x145.duration x1
    check 522 (decide (x147 = 1))
    let x148 ← x145.endTime x1
    check 522 (decide (x148 = (ts 2017 9 9 23 59 59 + 999999999)))
    check 522 (decide (x145.label = (.num (1 : Rat))))
    let x149 ← x145.isOnDuty x1 none
    check 522 (x149)
    let x150 ← Workshift.new x1 983 none
    let x151 ← x150.startTime x1
    check 522 (decide (x151 = (ts 2017 9 10)))
    let x152 ← x150.duration x1
    check 522 (decide (x152 = 1))
    let x153 ← x150.endTime x1
    check 522 (decide (x153 = (ts 2017 9 10 23 59 59 + 999999999)))
    check 522 (decide (x150.label = (.num (1 : Rat))))
    let x154 ← x150.isOnDuty x1 none
    check 522 (x154)
    let x155 ← Workshift.new x1 984 none
    let x156 ← x155.startTime x1
    check 522 (decide (x156 = (ts 2017 9 11)))
    let x157 ← x155.duration x1
    check 522 (decide (x157 = 1))
    let x158 ← x155.endTime x1
    check 522 (decide (x158 = (ts 2017 9 11 23 59 59 + 999999999)))
    check 522 (decide (x155.label = (.num (0 : Rat))))
    let x159 ← x155.isOnDuty x1 none
    check 522 (!(x159))
    let x160 ← Workshift.new x1 985 none
    let x161 ← x160.startTime x1
    check 522 (decide (x161 = (ts 2017 9 12)))
    let x162 ← x160.duration x1
    check 522 (decide (x162 = 1))
    let x163 ← x160.endTime x1
    check 522 (decide (x163 = (ts 2017 9 12 23 59 59 + 999999999)))
    check 522 (decide (x160.label = (.num (1 : Rat))))
    let x164 ← x160.isOnDuty x1 none
    check 522 (x164)
    let x165 ← Workshift.new x1 986 none
    let x166 ← x165.startTime x1
    check 522 (decide (x166 = (ts 2017 9 13)))
    let x167 ← x165.duration x1
    check 522 (decide (x167 = 1))
    let x168 ← x165.endTime x1
    check 522 (decide (x168 = (ts 2017 9 13 23 59 59 + 999999999)))
    check 522 (decide (x165.label = (.num (1 : Rat))))
    let x169 ← x165.isOnDuty x1 none
    check 522 (x169)
    let x170 ← Workshift.new x1 987 none
    let x171 ← x170.startTime x1
    check 522 (decide (x171 = (ts 2017 9 14)))
    let x172 ← x170.duration x1
    check 522 (decide (x172 = 1))
    let x173 ← x170.endTime x1
    check 522 (decide (x173 = (ts 2017 9 14 23 59 59 + 999999999)))
    check 522 (decide (x170.label = (.num (1 : Rat))))
    let x174 ← x170.isOnDuty x1 none
    check 522 (x174)
    let x175 ← Workshift.new x1 988 none
    let x176 ← x175.startTime x1
    check 522 (decide (x176 = (ts 2017 9 15)))
    let x177 ← x175.duration x1
    check 522 (decide (x177 = 1))
    let x178 ← x175.endTime x1
    check 522 (decide (x178 = (ts 2017 9 15 23 59 59 + 999999999)))
    check 522 (decide (x175.label = (.num (1 : Rat))))
    let x179 ← x175.isOnDuty x1 none
    check 522 (x179)
    let x180 ← Workshift.new x1 989 none
    let x181 ← x180.startTime x1
    check 522 (decide (x181 = (ts 2017 9 16)))
    let x182 ← x180.duration x1
    check 522 (decide (x182 = 1))
    let x183 ← x180.endTime x1
    check 522 (decide (x183 = (ts 2017 9 16 23 59 59 + 999999999)))
    check 522 (decide (x180.label = (.num (0 : Rat))))
    let x184 ← x180.isOnDuty x1 none
    check 522 (!(x184))
    let x185 ← Workshift.new x1 990 none
    let x186 ← x185.startTime x1
    check 522 (decide (x186 = (ts 2017 9 17)))
    let x187 ← x185.duration x1
    check 522 (decide (x187 = 1))
    let x188 ← x185.endTime x1
    check 522 (decide (x188 = (ts 2017 9 17 23 59 59 + 999999999)))
    check 522 (decide (x185.label = (.num (0 : Rat))))
    let x189 ← x185.isOnDuty x1 none
    check 522 (!(x189))
    let x190 ← Workshift.new x1 991 none
    let x191 ← x190.startTime x1
    check 522 (decide (x191 = (ts 2017 9 18)))
    let x192 ← x190.duration x1
    check 522 (decide (x192 = 1))
    let x193 ← x190.endTime x1
    check 522 (decide (x193 = (ts 2017 9 18 23 59 59 + 999999999)))
    check 522 (decide (x190.label = (.num (0 : Rat))))
    let x194 ← x190.isOnDuty x1 none
    check 522 (!(x194))
    let x195 ← Workshift.new x1 992 none
    let x196 ← x195.startTime x1
    check 522 (decide (x196 = (ts 2017 9 19)))
    let x197 ← x195.duration x1
    check 522 (decide (x197 = 1))
    let x198 ← x195.endTime x1
    check 522 (decide (x198 = (ts 2017 9 19 23 59 59 + 999999999)))
    check 522 (decide (x195.label = (.num (0 : Rat))))
    let x199 ← x195.isOnDuty x1 none
    check 522 (!(x199))
    let x200 ← Workshift.new x1 993 none
    let x201 ← x200.startTime x1
    check 522 (decide (x201 = (ts 2017 9 20)))
    let x202 ← x200.duration x1
    check 522 (decide (x202 = 1))
    let x203 ← x200.endTime x1
    check 522 (decide (x203 = (ts 2017 9 20 23 59 59 + 999999999)))
    check 522 (decide (x200.label = (.num (1 : Rat))))
    let x204 ← x200.isOnDuty x1 none
    check 522 (x204)
    let x205 ← Workshift.new x1 994 none
    let x206 ← x205.startTime x1
    check 522 (decide (x206 = (ts 2017 9 21)))
    let x207 ← x205.duration x1
    check 522 (decide (x207 = 1))
    let x208 ← x205.endTime x1
    check 522 (decide (x208 = (ts 2017 9 21 23 59 59 + 999999999)))
    check 522 (decide (x205.label = (.num (1 : Rat))))
    let x209 ← x205.isOnDuty x1 none
    check 522 (x209)
    let x210 ← Workshift.new x1 995 none
    let x211 ← x210.startTime x1
    check 522 (decide (x211 = (ts 2017 9 22)))
    let x212 ← x210.duration x1
    check 522 (decide (x212 = 1))
    let x213 ← x210.endTime x1
    check 522 (decide (x213 = (ts 2017 9 22 23 59 59 + 999999999)))
    check 522 (decide (x210.label = (.num (0 : Rat))))
    let x214 ← x210.isOnDuty x1 none
    check 522 (!(x214))
    let x215 ← Workshift.new x1 996 none
    let x216 ← x215.startTime x1
    check 522 (decide (x216 = (ts 2017 9 23)))
    let x217 ← x215.duration x1
    check 522 (decide (x217 = 1))
    let x218 ← x215.endTime x1
    check 522 (decide (x218 = (ts 2017 9 23 23 59 59 + 999999999)))
    check 522 (decide (x215.label = (.num (0 : Rat))))
    let x219 ← x215.isOnDuty x1 none
    check 522 (!(x219))
    let x220 ← Workshift.new x1 997 none
    let x221 ← x220.startTime x1
    check 522 (decide (x221 = (ts 2017 9 24)))
    let x222 ← x220.duration x1
    check 522 (decide (x222 = 1))
    let x223 ← x220.endTime x1
    check 522 (decide (x223 = (ts 2017 9 24 23 59 59 + 999999999)))
    check 522 (decide (x220.label = (.num (0 : Rat))))
    let x224 ← x220.isOnDuty x1 none
    check 522 (!(x224))
    pure ())

/- doc/source/making_a_timeboard.rst 630: results at lines 634, 659. -/
#guard passes (do
    let (x1, x2) ← Timeboard.new (L := V) { freq := (⟨none, .D, by decide⟩ : Freq), start := (ts 2012 1 1), stop := (ts 2015 12 31), layout := .organizer (.marker { each := (⟨none, .A none, by decide⟩ : Freq), ats := [nthWeekdayOfMonth 5 1 1 (some 1), nthWeekdayOfMonth 9 (-1) 7 none] }) [.organizer (.marker { each := (⟨none, .W none, by decide⟩ : Freq), ats := [] }) [.pattern (.list [(.i 0), (.i 0), (.i 1), (.i 1), (.i 0), (.i 0), (.i 0)])], .organizer (.marker { each := (⟨none, .W none, by decide⟩ : Freq), ats := [] }) [.pattern (.list [(.i 0), (.i 1), (.i 1), (.i 1), (.i 1), (.i 1), (.i 1)])]], selector := V.truthy, defaultLabel := V.none } (noHeap : Heap V)
    let x3 ← x1.call1 (.pair (some (ts 2012 4 30)) (some (ts 2012 5 15)))
    let x4 ← asIvl x3
    check 634 (decide ((x4.lo, x4.hi) = (120, 135)))
    let x5 ← x1.call1 (.pair (some (ts 2012 4 30)) (some (ts 2012 5 15)))
    let x6 ← asIvl x5
    check 634 (decide (x6.schedule.name = "on_duty"))
    let x7 ← x1.call1 (.pair (some (ts 2012 4 30)) (some (ts 2012 5 15)))
    let x8 ← asIvl x7
    check 634 (decide (x8.len = 16))
    let x9 ← Workshift.new x1 120 none
    let x10 ← x9.startTime x1
    check 634 (decide (x10 = (ts 2012 4 30)))
    let x11 ← x9.duration x1
    check 634 (decide (x11 = 1))
    let x12 ← x9.endTime x1
    check 634 (decide (x12 = (ts 2012 4 30 23 59 59 + 999999999)))
    check 634 (decide (x9.label = (.num (0 : Rat))))
    let x13 ← x9.isOnDuty x1 none
    check 634 (!(x13))
    let x14 ← Workshift.new x1 121 none
    let x15 ← x14.startTime x1
    check 634 (decide (x15 = (ts 2012 5 1)))
    let x16 ← x14.duration x1
    check 634 (decide (x16 = 1))
    let x17 ← x14.endTime x1
    check 634 (decide (x17 = (ts 2012 5 1 23 59 59 + 999999999)))
    check 634 (decide (x14.label = (.num (0 : Rat))))
    let x18 ← x14.isOnDuty x1 none
    check 634 (!(x18))
    let x19 ← Workshift.new x1 122 none
    let x20 ← x19.startTime x1
    check 634 (decide (x20 = (ts 2012 5 2)))
    let x21 ← x19.duration x1
    check 634 (decide (x21 = 1))
    let x22 ← x19.endTime x1
    check 634 (decide (x22 = (ts 2012 5 2 23 59 59 + 999999999)))
    check 634 (decide (x19.label = (.num (1 : Rat))))
    let x23 ← x19.isOnDuty x1 none
    check 634 (x23)
    let x24 ← Workshift.new x1 123 none
    let x25 ← x24.startTime x1
    check 634 (decide (x25 = (ts 2012 5 3)))
    let x26 ← x24.duration x1
    check 634 (decide (x26 = 1))
    let x27 ← x24.endTime x1
    check 634 (decide (x27 = (ts 2012 5 3 23 59 59 + 999999999)))
    check 634 (decide (x24.label = (.num (1 : Rat))))
    let x28 ← x24.isOnDuty x1 none
    check 634 (x28)
    let x29 ← Workshift.new x1 124 none
    let x30 ← x29.startTime x1
    check 634 (decide (x30 = (ts 2012 5 4)))
    let x31 ← x29.duration x1
    check 634 (decide (x31 = 1))
    let x32 ← x29.endTime x1
    check 634 (decide (x32 = (ts 2012 5 4 23 59 59 + 999999999)))
    check 634 (decide (x29.label = (.num (0 : Rat))))
    let x33 ← x29.isOnDuty x1 none
    check 634 (!(x33))
    let x34 ← Workshift.new x1 125 none
    let x35 ← x34.startTime x1
    check 634 (decide (x35 = (ts 2012 5 5)))
    let x36 ← x34.duration x1
    check 634 (decide (x36 = 1))
    let x37 ← x34.endTime x1
    check 634 (decide (x37 = (ts 2012 5 5 23 59 59 + 999999999)))
    check 634 (decide (x34.label = (.num (0 : Rat))))
    let x38 ← x34.isOnDuty x1 none
    check 634 (!(x38))
    let x39 ← Workshift.new x1 126 none
    let x40 ← x39.startTime x1
    check 634 (decide (x40 = (ts 2012 5 6)))
    let x41 ← x39.duration x1
    check 634 (decide (x41 = 1))
    let x42 ← x39.endTime x1
    check 634 (decide (x42 = (ts 2012 5 6 23 59 59 + 999999999)))
    check 634 (decide (x39.label = (.num (0 : Rat))))
    let x43 ← x39.isOnDuty x1 none
    check 634 (!(x43))
    let x44 ← Workshift.new x1 127 none
    let x45 ← x44.startTime x1
    check 634 (decide (x45 = (ts 2012 5 7)))
    let x46 ← x44.duration x1
    check 634 (decide (x46 = 1))
    let x47 ← x44.endTime x1
    check 634 (decide (x47 = (ts 2012 5 7 23 59 59 + 999999999)))
    check 634 (decide (x44.label = (.num (0 : Rat))))
    let x48 ← x44.isOnDuty x1 none
    check 634 (!(x48))
    let x49 ← Workshift.new x1 128 none
    let x50 ← x49.startTime x1
    check 634 (decide (x50 = (ts 2012 5 8)))
    let x51 ← x49.duration x1
    check 634 (decide (x51 = 1))
    let x52 ← x49.endTime x1
    check 634 (decide (x52 = (ts 2012 5 8 23 59 59 + 999999999)))
    check 634 (decide (x49.label = (.num (1 : Rat))))
    let x53 ← x49.isOnDuty x1 none
    check 634 (x53)
    let x54 ← Workshift.new x1 129 none
    let x55 ← x54.startTime x1
    check 634 (decide (x55 = (ts 2012 5 9)))
    let x56 ← x54.duration x1
    check 634 (decide (x56 = 1))
    let x57 ← x54.endTime x1
    check 634 (decide (x57 = (ts 2012 5 9 23 59 59 + 999999999)))
    check 634 (decide (x54.label = (.num (1 : Rat))))
    let x58 ← x54.isOnDuty x1 none
    check 634 (x58)
    let x59 ← Workshift.new x1 130 none
    let x60 ← x59.startTime x1
    check 634 (decide (x60 = (ts 2012 5 10)))
    let x61 ← x59.duration x1
    check 634 (decide (x61 = 1))
    let x62 ← x59.endTime x1
    check 634 (decide (x62 = (ts 2012 5 10 23 59 59 + 999999999)))
    check 634 (decide (x59.label = (.num (1 : Rat))))
    let x63 ← x59.isOnDuty x1 none
    check 634 (x63)
    let x64 ← Workshift.new x1 131 none
    let x65 ← x64.startTime x1
    check 634 (decide (x65 = (ts 2012 5 11)))
    let x66 ← x64.duration x1
    check 634 (decide (x66 = 1))
    let x67 ← x64.endTime x1
    check 634 (decide (x67 = (ts 2012 5 11 23 59 59 + 999999999)))
    check 634 (decide (x64.label = (.num (1 : Rat))))
    let x68 ← x64.isOnDuty x1 none
    check 634 (x68)
    let x69 ← Workshift.new x1 132 none
    let x70 ← x69.startTime x1
    check 634 (decide (x70 = (ts 2012 5 12)))
    let x71 ← x69.duration x1
    check 634 (decide (x71 = 1))
    let x72 ← x69.endTime x1
    check 634 (decide (x72 = (ts 2012 5 12 23 59 59 + 999999999)))
    check 634 (decide (x69.label = (.num (1 : Rat))))
    let x73 ← x69.isOnDuty x1 none
    check 634 (x73)
    let x74 ← Workshift.new x1 133 none
    let x75 ← x74.startTime x1
    check 634 (decide (x75 = (ts 2012 5 13)))
    let x76 ← x74.duration x1
    check 634 (decide (x76 = 1))
    let x77 ← x74.endTime x1
    check 634 (decide (x77 = (ts 2012 5 13 23 59 59 + 999999999)))
    check 634 (decide (x74.label = (.num (1 : Rat))))
    let x78 ← x74.isOnDuty x1 none
    check 634 (x78)
    let x79 ← Workshift.new x1 134 none
    let x80 ← x79.startTime x1
    check 634 (decide (x80 = (ts 2012 5 14)))
    let x81 ← x79.duration x1
    check 634 (decide (x81 = 1))
    let x82 ← x79.endTime x1
    check 634 (decide (x82 = (ts 2012 5 14 23 59 59 + 999999999)))
    check 634 (decide (x79.label = (.num (0 : Rat))))
    let x83 ← x79.isOnDuty x1 none
    check 634 (!(x83))
    let x84 ← Workshift.new x1 135 none
    let x85 ← x84.startTime x1
    check 634 (decide (x85 = (ts 2012 5 15)))
    let x86 ← x84.duration x1
    check 634 (decide (x86 = 1))
    let x87 ← x84.endTime x1
    check 634 (decide (x87 = (ts 2012 5 15 23 59 59 + 999999999)))
    check 634 (decide (x84.label = (.num (1 : Rat))))
    let x88 ← x84.isOnDuty x1 none
    check 634 (x88)
    let x89 ← x1.call1 (.pair (some (ts 2012 9 23)) (some (ts 2012 10 7)))
    let x90 ← asIvl x89
    check 659 (decide ((x90.lo, x90.hi) = (266, 280)))
    let x91 ← x1.call1 (.pair (some (ts 2012 9 23)) (some (ts 2012 10 7)))
    let x92 ← asIvl x91
    check 659 (decide (x92.schedule.name = "on_duty"))
    let x93 ← x1.call1 (.pair (some (ts 2012 9 23)) (some (ts 2012 10 7)))
    let x94 ← asIvl x93
    check 659 (decide (x94.len = 15))
    let x95 ← Workshift.new x1 266 none
    let x96 ← x95.startTime x1
    check 659 (decide (x96 = (ts 2012 9 23)))
    let x97 ← x95.duration x1
    check 659 (decide (x97 = 1))
    let x98 ← x95.endTime x1
    check 659 (decide (x98 = (ts 2012 9 23 23 59 59 + 999999999)))
    check 659 (decide (x95.label = (.num (1 : Rat))))
    let x99 ← x95.isOnDuty x1 none
    check 659 (x99)
    let x100 ← Workshift.new x1 267 none
    let x101 ← x100.startTime x1
    check 659 (decide (x101 = (ts 2012 9 24)))
    let x102 ← x100.duration x1
    check 659 (decide (x102 = 1))
    let x103 ← x100.endTime x1
    check 659 (decide (x103 = (ts 2012 9 24 23 59 59 + 999999999)))
    check 659 (decide (x100.label = (.num (0 : Rat))))
    let x104 ← x100.isOnDuty x1 none
    check 659 (!(x104))
    let x105 ← Workshift.new x1 268 none
    let x106 ← x105.startTime x1
    check 659 (decide (x106 = (ts 2012 9 25)))
    let x107 ← x105.duration x1
    check 659 (decide (x107 = 1))
    let x108 ← x105.endTime x1
    check 659 (decide (x108 = (ts 2012 9 25 23 59 59 + 999999999)))
    check 659 (decide (x105.label = (.num (1 : Rat))))
    let x109 ← x105.isOnDuty x1 none
    check 659 (x109)
    let x110 ← Workshift.new x1 269 none
    let x111 ← x110.startTime x1
    check 659 (decide (x111 = (ts 2012 9 26)))
    let x112 ← x110.duration x1
    check 659 (decide (x112 = 1))
    let x113 ← x110.endTime x1
    check 659 (decide (x113 = (ts 2012 9 26 23 59 59 + 999999999)))
    check 659 (decide (x110.label = (.num (1 : Rat))))
    let x114 ← x110.isOnDuty x1 none
    check 659 (x114)
    let x115 ← Workshift.new x1 270 none
    let x116 ← x115.startTime x1
    check 659 (decide (x116 = (ts 2012 9 27)))
    let x117 ← x115.duration x1
    check 659 (decide (x117 = 1))
    let x118 ← x115.endTime x1
    check 659 (decide (x118 = (ts 2012 9 27 23 59 59 + 999999999)))
    check 659 (decide (x115.label = (.num (1 : Rat))))
    let x119 ← x115.isOnDuty x1 none
    check 659 (x119)
    let x120 ← Workshift.new x1 271 none
    let x121 ← x120.startTime x1
    check 659 (decide (x121 = (ts 2012 9 28)))
    let x122 ← x120.duration x1
    check 659 (decide (x122 = 1))
    let x123 ← x120.endTime x1
    check 659 (decide (x123 = (ts 2012 9 28 23 59 59 + 999999999)))
    check 659 (decide (x120.label = (.num (1 : Rat))))
    let x124 ← x120.isOnDuty x1 none
    check 659 (x124)
    let x125 ← Workshift.new x1 272 none
    let x126 ← x125.startTime x1
    check 659 (decide (x126 = (ts 2012 9 29)))
    let x127 ← x125.duration x1
    check 659 (decide (x127 = 1))
    let x128 ← x125.endTime x1
    check 659 (decide (x128 = (ts 2012 9 29 23 59 59 + 999999999)))
    check 659 (decide (x125.label = (.num (1 : Rat))))
    let x129 ← x125.isOnDuty x1 none
    check 659 (x129)
    let x130 ← Workshift.new x1 273 none
    let x131 ← x130.startTime x1
    check 659 (decide (x131 = (ts 2012 9 30)))
    let x132 ← x130.duration x1
    check 659 (decide (x132 = 1))
    let x133 ← x130.endTime x1
    check 659 (decide (x133 = (ts 2012 9 30 23 59 59 + 999999999)))
    check 659 (decide (x130.label = (.num (0 : Rat))))
    let x134 ← x130.isOnDuty x1 none
    check 659 (!(x134))
    let x135 ← Workshift.new x1 274 none
    let x136 ← x135.startTime x1
    check 659 (decide (x136 = (ts 2012 10 1)))
    let x137 ← x135.duration x1
    check 659 (decide (x137 = 1))
    let x138 ← x135.endTime x1
    check 659 (decide (x138 = (ts 2012 10 1 23 59 59 + 999999999)))
    check 659 (decide (x135.label = (.num (0 : Rat))))
    let x139 ← x135.isOnDuty x1 none
    check 659 (!(x139))
    let x140 ← Workshift.new x1 275 none
    let x141 ← x140.startTime x1
    check 659 (decide (x141 = (ts 2012 10 2)))
    let x142 ← x140.duration x1
    check 659 (decide (x142 = 1))
    let x143 ← x140.endTime x1
    check 659 (decide (x143 = (ts 2012 10 2 23 59 59 + 999999999)))
    check 659 (decide (x140.label = (.num (0 : Rat))))
    let x144 ← x140.isOnDuty x1 none
    check 659 (!(x144))
    let x145 ← Workshift.new x1 276 none
    let x146 ← x145.startTime x1
    check 659 (decide (x146 = (ts 2012 10 3)))
    let x147 ← x145.duration x1
    check 659 (decide (x147 = 1))
    let x148 ← x145.endTime x1
    check 659 (decide (x148 = (ts 2012 10 3 23 59 59 + 999999999)))
    check 659 (decide (x145.label = (.num (1 : Rat))))
    let x149 ← x145.isOnDuty x1 none
    check 659 (x149)
    let x150 ← Workshift.new x1 277 none
    let x151 ← x150.startTime x1
    check 659 (decide (x151 = (ts 2012 10 4)))
    let x152 ← x150.duration x1
    check 659 (decide (x152 = 1))
    let x153 ← x150.endTime x1
    check 659 (decide (x153 = (ts 2012 10 4 23 59 59 + 999999999)))
    check 659 (decide (x150.label = (.num (1 : Rat))))
    let x154 ← x150.isOnDuty x1 none
    check 659 (x154)
    let x155 ← Workshift.new x1 278 none
    let x156 ← x155.startTime x1
    check 659 (decide (x156 = (ts 2012 10 5)))
    let x157 ← x155.duration x1
    check 659 (decide (x157 = 1))
    let x158 ← x155.endTime x1
    check 659 (decide (x158 = (ts 2012 10 5 23 59 59 + 999999999)))
    check 659 (decide (x155.label = (.num (0 : Rat))))
    let x159 ← x155.isOnDuty x1 none
    check 659 (!(x159))
    let x160 ← Workshift.new x1 279 none
    let x161 ← x160.startTime x1
    check 659 (decide (x161 = (ts 2012 10 6)))
    let x162 ← x160.duration x1
    check 659 (decide (x162 = 1))
    let x163 ← x160.endTime x1
    check 659 (decide (x163 = (ts 2012 10 6 23 59 59 + 999999999)))
    check 659 (decide (x160.label = (.num (0 : Rat))))
    let x164 ← x160.isOnDuty x1 none
    check 659 (!(x164))
    let x165 ← Workshift.new x1 280 none
    let x166 ← x165.startTime x1
    check 659 (decide (x166 = (ts 2012 10 7)))
    let x167 ← x165.duration x1
    check 659 (decide (x167 = 1))
    let x168 ← x165.endTime x1
    check 659 (decide (x168 = (ts 2012 10 7 23 59 59 + 999999999)))
    check 659 (decide (x165.label = (.num (0 : Rat))))
    let x169 ← x165.isOnDuty x1 none
    check 659 (!(x169))
    pure ())

/- doc/source/making_a_timeboard.rst 690: results at lines 698, 715. -/
#guard passes (do
    let (x1, x2) ← Timeboard.new (L := V) { freq := (⟨none, .D, by decide⟩ : Freq), start := (ts 2016 1 1), stop := (ts 2017 12 31), layout := .organizer (.marker { each := (⟨none, .A none, by decide⟩ : Freq), ats := [fromStartOfEach (some { months := 6, days := 13 }), fromStartOfEach (some { months := 8 })] }) [.pattern (.list [(.i 1), (.i 1), (.i 1), (.i 0), (.i 0)]), .pattern (.list [(.i (-1))])], selector := (fun x => x.gt (0 : Rat)), defaultLabel := V.none } (noHeap : Heap V)
    let x3 ← x1.call1 (.pair (some (ts 2016 7 7)) (some (ts 2016 7 17)))
    let x4 ← asIvl x3
    check 698 (decide ((x4.lo, x4.hi) = (188, 198)))
    let x5 ← x1.call1 (.pair (some (ts 2016 7 7)) (some (ts 2016 7 17)))
    let x6 ← asIvl x5
    check 698 (decide (x6.schedule.name = "on_duty"))
    let x7 ← x1.call1 (.pair (some (ts 2016 7 7)) (some (ts 2016 7 17)))
    let x8 ← asIvl x7
    check 698 (decide (x8.len = 11))
    let x9 ← Workshift.new x1 188 none
    let x10 ← x9.startTime x1
    check 698 (decide (x10 = (ts 2016 7 7)))
    let x11 ← x9.duration x1
    check 698 (decide (x11 = 1))
    let x12 ← x9.endTime x1
    check 698 (decide (x12 = (ts 2016 7 7 23 59 59 + 999999999)))
    check 698 (decide (x9.label = (.num (1 : Rat))))
    let x13 ← x9.isOnDuty x1 none
    check 698 (x13)
    let x14 ← Workshift.new x1 189 none
    let x15 ← x14.startTime x1
    check 698 (decide (x15 = (ts 2016 7 8)))
    let x16 ← x14.duration x1
    check 698 (decide (x16 = 1))
    let x17 ← x14.endTime x1
    check 698 (decide (x17 = (ts 2016 7 8 23 59 59 + 999999999)))
    check 698 (decide (x14.label = (.num (1 : Rat))))
    let x18 ← x14.isOnDuty x1 none
    check 698 (x18)
    let x19 ← Workshift.new x1 190 none
    let x20 ← x19.startTime x1
    check 698 (decide (x20 = (ts 2016 7 9)))
    let x21 ← x19.duration x1
    check 698 (decide (x21 = 1))
    let x22 ← x19.endTime x1
    check 698 (decide (x22 = (ts 2016 7 9 23 59 59 + 999999999)))
    check 698 (decide (x19.label = (.num (1 : Rat))))
    let x23 ← x19.isOnDuty x1 none
    check 698 (x23)
    let x24 ← Workshift.new x1 191 none
    let x25 ← x24.startTime x1
    check 698 (decide (x25 = (ts 2016 7 10)))
    let x26 ← x24.duration x1
    check 698 (decide (x26 = 1))
    let x27 ← x24.endTime x1
    check 698 (decide (x27 = (ts 2016 7 10 23 59 59 + 999999999)))
    check 698 (decide (x24.label = (.num (0 : Rat))))
    let x28 ← x24.isOnDuty x1 none
    check 698 (!(x28))
    let x29 ← Workshift.new x1 192 none
    let x30 ← x29.startTime x1
    check 698 (decide (x30 = (ts 2016 7 11)))
    let x31 ← x29.duration x1
    check 698 (decide (x31 = 1))
    let x32 ← x29.endTime x1
    check 698 (decide (x32 = (ts 2016 7 11 23 59 59 + 999999999)))
    check 698 (decide (x29.label = (.num (0 : Rat))))
    let x33 ← x29.isOnDuty x1 none
    check 698 (!(x33))
    let x34 ← Workshift.new x1 193 none
    let x35 ← x34.startTime x1
    check 698 (decide (x35 = (ts 2016 7 12)))
    let x36 ← x34.duration x1
    check 698 (decide (x36 = 1))
    let x37 ← x34.endTime x1
    check 698 (decide (x37 = (ts 2016 7 12 23 59 59 + 999999999)))
    check 698 (decide (x34.label = (.num (1 : Rat))))
    let x38 ← x34.isOnDuty x1 none
    check 698 (x38)
    let x39 ← Workshift.new x1 194 none
    let x40 ← x39.startTime x1
    check 698 (decide (x40 = (ts 2016 7 13)))
    let x41 ← x39.duration x1
    check 698 (decide (x41 = 1))
    let x42 ← x39.endTime x1
    check 698 (decide (x42 = (ts 2016 7 13 23 59 59 + 999999999)))
    check 698 (decide (x39.label = (.num (1 : Rat))))
    let x43 ← x39.isOnDuty x1 none
    check 698 (x43)
    let x44 ← Workshift.new x1 195 none
    let x45 ← x44.startTime x1
    check 698 (decide (x45 = (ts 2016 7 14)))
    let x46 ← x44.duration x1
    check 698 (decide (x46 = 1))
    let x47 ← x44.endTime x1
    check 698 (decide (x47 = (ts 2016 7 14 23 59 59 + 999999999)))
    check 698 (decide (x44.label = (.num (-1 : Rat))))
    let x48 ← x44.isOnDuty x1 none
    check 698 (!(x48))
    let x49 ← Workshift.new x1 196 none
    let x50 ← x49.startTime x1
    check 698 (decide (x50 = (ts 2016 7 15)))
    let x51 ← x49.duration x1
    check 698 (decide (x51 = 1))
    let x52 ← x49.endTime x1
    check 698 (decide (x52 = (ts 2016 7 15 23 59 59 + 999999999)))
    check 698 (decide (x49.label = (.num (-1 : Rat))))
    let x53 ← x49.isOnDuty x1 none
    check 698 (!(x53))
    let x54 ← Workshift.new x1 197 none
    let x55 ← x54.startTime x1
    check 698 (decide (x55 = (ts 2016 7 16)))
    let x56 ← x54.duration x1
    check 698 (decide (x56 = 1))
    let x57 ← x54.endTime x1
    check 698 (decide (x57 = (ts 2016 7 16 23 59 59 + 999999999)))
    check 698 (decide (x54.label = (.num (-1 : Rat))))
    let x58 ← x54.isOnDuty x1 none
    check 698 (!(x58))
    let x59 ← Workshift.new x1 198 none
    let x60 ← x59.startTime x1
    check 698 (decide (x60 = (ts 2016 7 17)))
    let x61 ← x59.duration x1
    check 698 (decide (x61 = 1))
    let x62 ← x59.endTime x1
    check 698 (decide (x62 = (ts 2016 7 17 23 59 59 + 999999999)))
    check 698 (decide (x59.label = (.num (-1 : Rat))))
    let x63 ← x59.isOnDuty x1 none
    check 698 (!(x63))
    let x64 ← x1.call1 (.pair (some (ts 2016 8 27)) (some (ts 2016 9 6)))
    let x65 ← asIvl x64
    check 715 (decide ((x65.lo, x65.hi) = (239, 249)))
    let x66 ← x1.call1 (.pair (some (ts 2016 8 27)) (some (ts 2016 9 6)))
    let x67 ← asIvl x66
    check 715 (decide (x67.schedule.name = "on_duty"))
    let x68 ← x1.call1 (.pair (some (ts 2016 8 27)) (some (ts 2016 9 6)))
    let x69 ← asIvl x68
    check 715 (decide (x69.len = 11))
    let x70 ← Workshift.new x1 239 none
    let x71 ← x70.startTime x1
    check 715 (decide (x71 = (ts 2016 8 27)))
    let x72 ← x70.duration x1
    check 715 (decide (x72 = 1))
    let x73 ← x70.endTime x1
    check 715 (decide (x73 = (ts 2016 8 27 23 59 59 + 999999999)))
    check 715 (decide (x70.label = (.num (-1 : Rat))))
    let x74 ← x70.isOnDuty x1 none
    check 715 (!(x74))
    let x75 ← Workshift.new x1 240 none
    let x76 ← x75.startTime x1
    check 715 (decide (x76 = (ts 2016 8 28)))
    let x77 ← x75.duration x1
    check 715 (decide (x77 = 1))
    let x78 ← x75.endTime x1
    check 715 (decide (x78 = (ts 2016 8 28 23 59 59 + 999999999)))
    check 715 (decide (x75.label = (.num (-1 : Rat))))
    let x79 ← x75.isOnDuty x1 none
    check 715 (!(x79))
    let x80 ← Workshift.new x1 241 none
    let x81 ← x80.startTime x1
    check 715 (decide (x81 = (ts 2016 8 29)))
    let x82 ← x80.duration x1
    check 715 (decide (x82 = 1))
    let x83 ← x80.endTime x1
    check 715 (decide (x83 = (ts 2016 8 29 23 59 59 + 999999999)))
    check 715 (decide (x80.label = (.num (-1 : Rat))))
    let x84 ← x80.isOnDuty x1 none
    check 715 (!(x84))
    let x85 ← Workshift.new x1 242 none
    let x86 ← x85.startTime x1
    check 715 (decide (x86 = (ts 2016 8 30)))
    let x87 ← x85.duration x1
    check 715 (decide (x87 = 1))
    let x88 ← x85.endTime x1
    check 715 (decide (x88 = (ts 2016 8 30 23 59 59 + 999999999)))
    check 715 (decide (x85.label = (.num (-1 : Rat))))
    let x89 ← x85.isOnDuty x1 none
    check 715 (!(x89))
    let x90 ← Workshift.new x1 243 none
    let x91 ← x90.startTime x1
    check 715 (decide (x91 = (ts 2016 8 31)))
    let x92 ← x90.duration x1
    check 715 (decide (x92 = 1))
    let x93 ← x90.endTime x1
    check 715 (decide (x93 = (ts 2016 8 31 23 59 59 + 999999999)))
    check 715 (decide (x90.label = (.num (-1 : Rat))))
    let x94 ← x90.isOnDuty x1 none
    check 715 (!(x94))
    let x95 ← Workshift.new x1 244 none
    let x96 ← x95.startTime x1
    check 715 (decide (x96 = (ts 2016 9 1)))
    let x97 ← x95.duration x1
    check 715 (decide (x97 = 1))
    let x98 ← x95.endTime x1
    check 715 (decide (x98 = (ts 2016 9 1 23 59 59 + 999999999)))
    check 715 (decide (x95.label = (.num (1 : Rat))))
    let x99 ← x95.isOnDuty x1 none
    check 715 (x99)
    let x100 ← Workshift.new x1 245 none
    let x101 ← x100.startTime x1
    check 715 (decide (x101 = (ts 2016 9 2)))
    let x102 ← x100.duration x1
    check 715 (decide (x102 = 1))
    let x103 ← x100.endTime x1
    check 715 (decide (x103 = (ts 2016 9 2 23 59 59 + 999999999)))
    check 715 (decide (x100.label = (.num (1 : Rat))))
    let x104 ← x100.isOnDuty x1 none
    check 715 (x104)
    let x105 ← Workshift.new x1 246 none
    let x106 ← x105.startTime x1
    check 715 (decide (x106 = (ts 2016 9 3)))
    let x107 ← x105.duration x1
    check 715 (decide (x107 = 1))
    let x108 ← x105.endTime x1
    check 715 (decide (x108 = (ts 2016 9 3 23 59 59 + 999999999)))
    check 715 (decide (x105.label = (.num (1 : Rat))))
    let x109 ← x105.isOnDuty x1 none
    check 715 (x109)
    let x110 ← Workshift.new x1 247 none
    let x111 ← x110.startTime x1
    check 715 (decide (x111 = (ts 2016 9 4)))
    let x112 ← x110.duration x1
    check 715 (decide (x112 = 1))
    let x113 ← x110.endTime x1
    check 715 (decide (x113 = (ts 2016 9 4 23 59 59 + 999999999)))
    check 715 (decide (x110.label = (.num (0 : Rat))))
    let x114 ← x110.isOnDuty x1 none
    check 715 (!(x114))
    let x115 ← Workshift.new x1 248 none
    let x116 ← x115.startTime x1
    check 715 (decide (x116 = (ts 2016 9 5)))
    let x117 ← x115.duration x1
    check 715 (decide (x117 = 1))
    let x118 ← x115.endTime x1
    check 715 (decide (x118 = (ts 2016 9 5 23 59 59 + 999999999)))
    check 715 (decide (x115.label = (.num (0 : Rat))))
    let x119 ← x115.isOnDuty x1 none
    check 715 (!(x119))
    let x120 ← Workshift.new x1 249 none
    let x121 ← x120.startTime x1
    check 715 (decide (x121 = (ts 2016 9 6)))
    let x122 ← x120.duration x1
    check 715 (decide (x122 = 1))
    let x123 ← x120.endTime x1
    check 715 (decide (x123 = (ts 2016 9 6 23 59 59 + 999999999)))
    check 715 (decide (x120.label = (.num (1 : Rat))))
    let x124 ← x120.isOnDuty x1 none
    check 715 (x124)
    pure ())

/- doc/source/making_a_timeboard.rst 742: results at lines 747, 764. -/
#guard passes (do
    let (x1, x2) ← Timeboard.new (L := V) { freq := (⟨none, .D, by decide⟩ : Freq), start := (ts 2016 1 1), stop := (ts 2017 12 31), layout := .organizer (.marker { each := (⟨none, .A none, by decide⟩ : Freq), ats := [fromStartOfEach (some { months := 6, days := 13 }), fromStartOfEach (some { months := 8 })] }) [.pattern (.rp 0), .pattern (.list [(.i (-1))])], selector := (fun x => x.gt (0 : Rat)), defaultLabel := V.none } (((noHeap : Heap V)).set 0 (Cycle.start [(.i 1), (.i 1), (.i 1), (.i 0), (.i 0)]))
    let x3 ← x1.call1 (.pair (some (ts 2016 7 7)) (some (ts 2016 7 17)))
    let x4 ← asIvl x3
    check 747 (decide ((x4.lo, x4.hi) = (188, 198)))
    let x5 ← x1.call1 (.pair (some (ts 2016 7 7)) (some (ts 2016 7 17)))
    let x6 ← asIvl x5
    check 747 (decide (x6.schedule.name = "on_duty"))
    let x7 ← x1.call1 (.pair (some (ts 2016 7 7)) (some (ts 2016 7 17)))
    let x8 ← asIvl x7
    check 747 (decide (x8.len = 11))
    let x9 ← Workshift.new x1 188 none
    let x10 ← x9.startTime x1
    check 747 (decide (x10 = (ts 2016 7 7)))
    let x11 ← x9.duration x1
    check 747 (decide (x11 = 1))
    let x12 ← x9.endTime x1
    check 747 (decide (x12 = (ts 2016 7 7 23 59 59 + 999999999)))
    check 747 (decide (x9.label = (.num (1 : Rat))))
    let x13 ← x9.isOnDuty x1 none
    check 747 (x13)
    let x14 ← Workshift.new x1 189 none
    let x15 ← x14.startTime x1
    check 747 (decide (x15 = (ts 2016 7 8)))
    let x16 ← x14.duration x1
    check 747 (decide (x16 = 1))
    let x17 ← x14.endTime x1
    check 747 (decide (x17 = (ts 2016 7 8 23 59 59 + 999999999)))
    check 747 (decide (x14.label = (.num (1 : Rat))))
    let x18 ← x14.isOnDuty x1 none
    check 747 (x18)
    let x19 ← Workshift.new x1 190 none
    let x20 ← x19.startTime x1
    check 747 (decide (x20 = (ts 2016 7 9)))
    let x21 ← x19.duration x1
    check 747 (decide (x21 = 1))
    let x22 ← x19.endTime x1
    check 747 (decide (x22 = (ts 2016 7 9 23 59 59 + 999999999)))
    check 747 (decide (x19.label = (.num (1 : Rat))))
    let x23 ← x19.isOnDuty x1 none
    check 747 (x23)
    let x24 ← Workshift.new x1 191 none
    let x25 ← x24.startTime x1
    check 747 (decide (x25 = (ts 2016 7 10)))
    let x26 ← x24.duration x1
    check 747 (decide (x26 = 1))
    let x27 ← x24.endTime x1
    check 747 (decide (x27 = (ts 2016 7 10 23 59 59 + 999999999)))
    check 747 (decide (x24.label = (.num (0 : Rat))))
    let x28 ← x24.isOnDuty x1 none
    check 747 (!(x28))
    let x29 ← Workshift.new x1 192 none
    let x30 ← x29.startTime x1
    check 747 (decide (x30 = (ts 2016 7 11)))
    let x31 ← x29.duration x1
    check 747 (decide (x31 = 1))
    let x32 ← x29.endTime x1
    check 747 (decide (x32 = (ts 2016 7 11 23 59 59 + 999999999)))
    check 747 (decide (x29.label = (.num (0 : Rat))))
    let x33 ← x29.isOnDuty x1 none
    check 747 (!(x33))
    let x34 ← Workshift.new x1 193 none
    let x35 ← x34.startTime x1
    check 747 (decide (x35 = (ts 2016 7 12)))
    let x36 ← x34.duration x1
    check 747 (decide (x36 = 1))
    let x37 ← x34.endTime x1
    check 747 (decide (x37 = (ts 2016 7 12 23 59 59 + 999999999)))
    check 747 (decide (x34.label = (.num (1 : Rat))))
    let x38 ← x34.isOnDuty x1 none
    check 747 (x38)
    let x39 ← Workshift.new x1 194 none
    let x40 ← x39.startTime x1
    check 747 (decide (x40 = (ts 2016 7 13)))
    let x41 ← x39.duration x1
    check 747 (decide (x41 = 1))
    let x42 ← x39.endTime x1
    check 747 (decide (x42 = (ts 2016 7 13 23 59 59 + 999999999)))
    check 747 (decide (x39.label = (.num (1 : Rat))))
    let x43 ← x39.isOnDuty x1 none
    check 747 (x43)
    let x44 ← Workshift.new x1 195 none
    let x45 ← x44.startTime x1
    check 747 (decide (x45 = (ts 2016 7 14)))
    let x46 ← x44.duration x1
    check 747 (decide (x46 = 1))
    let x47 ← x44.endTime x1
    check 747 (decide (x47 = (ts 2016 7 14 23 59 59 + 999999999)))
    check 747 (decide (x44.label = (.num (-1 : Rat))))
    let x48 ← x44.isOnDuty x1 none
    check 747 (!(x48))
    let x49 ← Workshift.new x1 196 none
    let x50 ← x49.startTime x1
    check 747 (decide (x50 = (ts 2016 7 15)))
    let x51 ← x49.duration x1
    check 747 (decide (x51 = 1))
    let x52 ← x49.endTime x1
    check 747 (decide (x52 = (ts 2016 7 15 23 59 59 + 999999999)))
    check 747 (decide (x49.label = (.num (-1 : Rat))))
    let x53 ← x49.isOnDuty x1 none
    check 747 (!(x53))
    let x54 ← Workshift.new x1 197 none
    let x55 ← x54.startTime x1
    check 747 (decide (x55 = (ts 2016 7 16)))
    let x56 ← x54.duration x1
    check 747 (decide (x56 = 1))
    let x57 ← x54.endTime x1
    check 747 (decide (x57 = (ts 2016 7 16 23 59 59 + 999999999)))
    check 747 (decide (x54.label = (.num (-1 : Rat))))
    let x58 ← x54.isOnDuty x1 none
    check 747 (!(x58))
    let x59 ← Workshift.new x1 198 none
    let x60 ← x59.startTime x1
    check 747 (decide (x60 = (ts 2016 7 17)))
    let x61 ← x59.duration x1
    check 747 (decide (x61 = 1))
    let x62 ← x59.endTime x1
    check 747 (decide (x62 = (ts 2016 7 17 23 59 59 + 999999999)))
    check 747 (decide (x59.label = (.num (-1 : Rat))))
    let x63 ← x59.isOnDuty x1 none
    check 747 (!(x63))
    let x64 ← x1.call1 (.pair (some (ts 2016 8 27)) (some (ts 2016 9 8)))
    let x65 ← asIvl x64
    check 764 (decide ((x65.lo, x65.hi) = (239, 251)))
    let x66 ← x1.call1 (.pair (some (ts 2016 8 27)) (some (ts 2016 9 8)))
    let x67 ← asIvl x66
    check 764 (decide (x67.schedule.name = "on_duty"))
    let x68 ← x1.call1 (.pair (some (ts 2016 8 27)) (some (ts 2016 9 8)))
    let x69 ← asIvl x68
    check 764 (decide (x69.len = 13))
    let x70 ← Workshift.new x1 239 none
    let x71 ← x70.startTime x1
    check 764 (decide (x71 = (ts 2016 8 27)))
    let x72 ← x70.duration x1
    check 764 (decide (x72 = 1))
    let x73 ← x70.endTime x1
    check 764 (decide (x73 = (ts 2016 8 27 23 59 59 + 999999999)))
    check 764 (decide (x70.label = (.num (-1 : Rat))))
    let x74 ← x70.isOnDuty x1 none
    check 764 (!(x74))
    let x75 ← Workshift.new x1 240 none
    let x76 ← x75.startTime x1
    check 764 (decide (x76 = (ts 2016 8 28)))
    let x77 ← x75.duration x1
    check 764 (decide (x77 = 1))
    let x78 ← x75.endTime x1
    check 764 (decide (x78 = (ts 2016 8 28 23 59 59 + 999999999)))
    check 764 (decide (x75.label = (.num (-1 : Rat))))
    let x79 ← x75.isOnDuty x1 none
    check 764 (!(x79))
    let x80 ← Workshift.new x1 241 none
    let x81 ← x80.startTime x1
    check 764 (decide (x81 = (ts 2016 8 29)))
    let x82 ← x80.duration x1
    check 764 (decide (x82 = 1))
    let x83 ← x80.endTime x1
    check 764 (decide (x83 = (ts 2016 8 29 23 59 59 + 999999999)))
    check 764 (decide (x80.label = (.num (-1 : Rat))))
    let x84 ← x80.isOnDuty x1 none
    check 764 (!(x84))
    let x85 ← Workshift.new x1 242 none
    let x86 ← x85.startTime x1
    check 764 (decide (x86 = (ts 2016 8 30)))
    let x87 ← x85.duration x1
    check 764 (decide (x87 = 1))
    let x88 ← x85.endTime x1
    check 764 (decide (x88 = (ts 2016 8 30 23 59 59 + 999999999)))
    check 764 (decide (x85.label = (.num (-1 : Rat))))
    let x89 ← x85.isOnDuty x1 none
    check 764 (!(x89))
    let x90 ← Workshift.new x1 243 none
    let x91 ← x90.startTime x1
    check 764 (decide (x91 = (ts 2016 8 31)))
    let x92 ← x90.duration x1
    check 764 (decide (x92 = 1))
    let x93 ← x90.endTime x1
    check 764 (decide (x93 = (ts 2016 8 31 23 59 59 + 999999999)))
    check 764 (decide (x90.label = (.num (-1 : Rat))))
    let x94 ← x90.isOnDuty x1 none
    check 764 (!(x94))
    let x95 ← Workshift.new x1 244 none
    let x96 ← x95.startTime x1
    check 764 (decide (x96 = (ts 2016 9 1)))
    let x97 ← x95.duration x1
    check 764 (decide (x97 = 1))
    let x98 ← x95.endTime x1
    check 764 (decide (x98 = (ts 2016 9 1 23 59 59 + 999999999)))
    check 764 (decide (x95.label = (.num (1 : Rat))))
    let x99 ← x95.isOnDuty x1 none
    check 764 (x99)
    let x100 ← Workshift.new x1 245 none
    let x101 ← x100.startTime x1
    check 764 (decide (x101 = (ts 2016 9 2)))
    let x102 ← x100.duration x1
    check 764 (decide (x102 = 1))
    let x103 ← x100.endTime x1
    check 764 (decide (x103 = (ts 2016 9 2 23 59 59 + 999999999)))
    check 764 (decide (x100.label = (.num (0 : Rat))))
    let x104 ← x100.isOnDuty x1 none
    check 764 (!(x104))
    let x105 ← Workshift.new x1 246 none
    let x106 ← x105.startTime x1
    check 764 (decide (x106 = (ts 2016 9 3)))
    let x107 ← x105.duration x1
    check 764 (decide (x107 = 1))
    let x108 ← x105.endTime x1
    check 764 (decide (x108 = (ts 2016 9 3 23 59 59 + 999999999)))
    check 764 (decide (x105.label = (.num (0 : Rat))))
    let x109 ← x105.isOnDuty x1 none
    check 764 (!(x109))
    let x110 ← Workshift.new x1 247 none
    let x111 ← x110.startTime x1
    check 764 (decide (x111 = (ts 2016 9 4)))
    let x112 ← x110.duration x1
    check 764 (decide (x112 = 1))
    let x113 ← x110.endTime x1
    check 764 (decide (x113 = (ts 2016 9 4 23 59 59 + 999999999)))
    check 764 (decide (x110.label = (.num (1 : Rat))))
    let x114 ← x110.isOnDuty x1 none
    check 764 (x114)
    let x115 ← Workshift.new x1 248 none
    let x116 ← x115.startTime x1
    check 764 (decide (x116 = (ts 2016 9 5)))
    let x117 ← x115.duration x1
    check 764 (decide (x117 = 1))
    let x118 ← x115.endTime x1
    check 764 (decide (x118 = (ts 2016 9 5 23 59 59 + 999999999)))
    check 764 (decide (x115.label = (.num (1 : Rat))))
    let x119 ← x115.isOnDuty x1 none
    check 764 (x119)
    let x120 ← Workshift.new x1 249 none
    let x121 ← x120.startTime x1
    check 764 (decide (x121 = (ts 2016 9 6)))
    let x122 ← x120.duration x1
    check 764 (decide (x122 = 1))
    let x123 ← x120.endTime x1
    check 764 (decide (x123 = (ts 2016 9 6 23 59 59 + 999999999)))
    check 764 (decide (x120.label = (.num (1 : Rat))))
    let x124 ← x120.isOnDuty x1 none
    check 764 (x124)
    let x125 ← Workshift.new x1 250 none
    let x126 ← x125.startTime x1
    check 764 (decide (x126 = (ts 2016 9 7)))
    let x127 ← x125.duration x1
    check 764 (decide (x127 = 1))
    let x128 ← x125.endTime x1
    check 764 (decide (x128 = (ts 2016 9 7 23 59 59 + 999999999)))
    check 764 (decide (x125.label = (.num (0 : Rat))))
    let x129 ← x125.isOnDuty x1 none
    check 764 (!(x129))
    let x130 ← Workshift.new x1 251 none
    let x131 ← x130.startTime x1
    check 764 (decide (x131 = (ts 2016 9 8)))
    let x132 ← x130.duration x1
    check 764 (decide (x132 = 1))
    let x133 ← x130.endTime x1
    check 764 (decide (x133 = (ts 2016 9 8 23 59 59 + 999999999)))
    check 764 (decide (x130.label = (.num (0 : Rat))))
    let x134 ← x130.isOnDuty x1 none
    check 764 (!(x134))
    pure ())

/- doc/source/making_a_timeboard.rst 822: results at line 827. -/
#guard passes (do
    let (x1, x2) ← Timeboard.new (L := V) { freq := (⟨none, .H, by decide⟩ : Freq), start := (ts 2017 10 2 8), stop := (ts 2017 10 7 1 59), layout := .organizer (.marker { each := (⟨none, .D, by decide⟩ : Freq), ats := [fromStartOfEach (some { hours := 2 }), fromStartOfEach (some { hours := 8 }), fromStartOfEach (some { hours := 18 })] }) [.label (.str "A"), .label (.str "B"), .label (.str "C"), .label (.str "D")], selector := V.truthy, defaultLabel := V.none } (noHeap : Heap V)
    let (x3, x4) ← x1.addSchedule "team_A" (fun x => decide (x = (.str "A")))
    let x5 ← Workshift.new x4 0 none
    let x6 ← x5.toTimestamp x4
    check 827 (decide (x6 = (ts 2017 10 2 8)))
    let x7 ← x5.duration x4
    check 827 (decide (x7 = 10))
    let x8 ← x5.endTime x4
    check 827 (decide (x8 = (ts 2017 10 2 17 59 59 + 999999999)))
    check 827 (decide (x5.label = (.str "A")))
    let x9 ← x5.isOnDuty x4 none
    check 827 (x9)
    let x10 ← key x4.schedules "team_A"
    let x11 ← x5.isOnDuty x4 (some x10)
    check 827 (x11)
    let x12 ← Workshift.new x4 1 none
    let x13 ← x12.toTimestamp x4
    check 827 (decide (x13 = (ts 2017 10 2 18)))
    let x14 ← x12.duration x4
    check 827 (decide (x14 = 8))
    let x15 ← x12.endTime x4
    check 827 (decide (x15 = (ts 2017 10 3 1 59 59 + 999999999)))
    check 827 (decide (x12.label = (.str "B")))
    let x16 ← x12.isOnDuty x4 none
    check 827 (x16)
    let x17 ← key x4.schedules "team_A"
    let x18 ← x12.isOnDuty x4 (some x17)
    check 827 (!(x18))
    let x19 ← Workshift.new x4 2 none
    let x20 ← x19.toTimestamp x4
    check 827 (decide (x20 = (ts 2017 10 3 2)))
    let x21 ← x19.duration x4
    check 827 (decide (x21 = 6))
    let x22 ← x19.endTime x4
    check 827 (decide (x22 = (ts 2017 10 3 7 59 59 + 999999999)))
    check 827 (decide (x19.label = (.str "C")))
    let x23 ← x19.isOnDuty x4 none
    check 827 (x23)
    let x24 ← key x4.schedules "team_A"
    let x25 ← x19.isOnDuty x4 (some x24)
    check 827 (!(x25))
    let x26 ← Workshift.new x4 3 none
    let x27 ← x26.toTimestamp x4
    check 827 (decide (x27 = (ts 2017 10 3 8)))
    let x28 ← x26.duration x4
    check 827 (decide (x28 = 10))
    let x29 ← x26.endTime x4
    check 827 (decide (x29 = (ts 2017 10 3 17 59 59 + 999999999)))
    check 827 (decide (x26.label = (.str "D")))
    let x30 ← x26.isOnDuty x4 none
    check 827 (x30)
    let x31 ← key x4.schedules "team_A"
    let x32 ← x26.isOnDuty x4 (some x31)
    check 827 (!(x32))
    let x33 ← Workshift.new x4 4 none
    let x34 ← x33.toTimestamp x4
    check 827 (decide (x34 = (ts 2017 10 3 18)))
    let x35 ← x33.duration x4
    check 827 (decide (x35 = 8))
    let x36 ← x33.endTime x4
    check 827 (decide (x36 = (ts 2017 10 4 1 59 59 + 999999999)))
    check 827 (decide (x33.label = (.str "A")))
    let x37 ← x33.isOnDuty x4 none
    check 827 (x37)
    let x38 ← key x4.schedules "team_A"
    let x39 ← x33.isOnDuty x4 (some x38)
    check 827 (x39)
    let x40 ← Workshift.new x4 5 none
    let x41 ← x40.toTimestamp x4
    check 827 (decide (x41 = (ts 2017 10 4 2)))
    let x42 ← x40.duration x4
    check 827 (decide (x42 = 6))
    let x43 ← x40.endTime x4
    check 827 (decide (x43 = (ts 2017 10 4 7 59 59 + 999999999)))
    check 827 (decide (x40.label = (.str "B")))
    let x44 ← x40.isOnDuty x4 none
    check 827 (x44)
    let x45 ← key x4.schedules "team_A"
    let x46 ← x40.isOnDuty x4 (some x45)
    check 827 (!(x46))
    let x47 ← Workshift.new x4 6 none
    let x48 ← x47.toTimestamp x4
    check 827 (decide (x48 = (ts 2017 10 4 8)))
    let x49 ← x47.duration x4
    check 827 (decide (x49 = 10))
    let x50 ← x47.endTime x4
    check 827 (decide (x50 = (ts 2017 10 4 17 59 59 + 999999999)))
    check 827 (decide (x47.label = (.str "C")))
    let x51 ← x47.isOnDuty x4 none
    check 827 (x51)
    let x52 ← key x4.schedules "team_A"
    let x53 ← x47.isOnDuty x4 (some x52)
    check 827 (!(x53))
    let x54 ← Workshift.new x4 7 none
    let x55 ← x54.toTimestamp x4
    check 827 (decide (x55 = (ts 2017 10 4 18)))
    let x56 ← x54.duration x4
    check 827 (decide (x56 = 8))
    let x57 ← x54.endTime x4
    check 827 (decide (x57 = (ts 2017 10 5 1 59 59 + 999999999)))
    check 827 (decide (x54.label = (.str "D")))
    let x58 ← x54.isOnDuty x4 none
    check 827 (x58)
    let x59 ← key x4.schedules "team_A"
    let x60 ← x54.isOnDuty x4 (some x59)
    check 827 (!(x60))
    let x61 ← Workshift.new x4 8 none
    let x62 ← x61.toTimestamp x4
    check 827 (decide (x62 = (ts 2017 10 5 2)))
    let x63 ← x61.duration x4
    check 827 (decide (x63 = 6))
    let x64 ← x61.endTime x4
    check 827 (decide (x64 = (ts 2017 10 5 7 59 59 + 999999999)))
    check 827 (decide (x61.label = (.str "A")))
    let x65 ← x61.isOnDuty x4 none
    check 827 (x65)
    let x66 ← key x4.schedules "team_A"
    let x67 ← x61.isOnDuty x4 (some x66)
    check 827 (x67)
    let x68 ← Workshift.new x4 9 none
    let x69 ← x68.toTimestamp x4
    check 827 (decide (x69 = (ts 2017 10 5 8)))
    let x70 ← x68.duration x4
    check 827 (decide (x70 = 10))
    let x71 ← x68.endTime x4
    check 827 (decide (x71 = (ts 2017 10 5 17 59 59 + 999999999)))
    check 827 (decide (x68.label = (.str "B")))
    let x72 ← x68.isOnDuty x4 none
    check 827 (x72)
    let x73 ← key x4.schedules "team_A"
    let x74 ← x68.isOnDuty x4 (some x73)
    check 827 (!(x74))
    let x75 ← Workshift.new x4 10 none
    let x76 ← x75.toTimestamp x4
    check 827 (decide (x76 = (ts 2017 10 5 18)))
    let x77 ← x75.duration x4
    check 827 (decide (x77 = 8))
    let x78 ← x75.endTime x4
    check 827 (decide (x78 = (ts 2017 10 6 1 59 59 + 999999999)))
    check 827 (decide (x75.label = (.str "C")))
    let x79 ← x75.isOnDuty x4 none
    check 827 (x79)
    let x80 ← key x4.schedules "team_A"
    let x81 ← x75.isOnDuty x4 (some x80)
    check 827 (!(x81))
    let x82 ← Workshift.new x4 11 none
    let x83 ← x82.toTimestamp x4
    check 827 (decide (x83 = (ts 2017 10 6 2)))
    let x84 ← x82.duration x4
    check 827 (decide (x84 = 6))
    let x85 ← x82.endTime x4
    check 827 (decide (x85 = (ts 2017 10 6 7 59 59 + 999999999)))
    check 827 (decide (x82.label = (.str "D")))
    let x86 ← x82.isOnDuty x4 none
    check 827 (x86)
    let x87 ← key x4.schedules "team_A"
    let x88 ← x82.isOnDuty x4 (some x87)
    check 827 (!(x88))
    let x89 ← Workshift.new x4 12 none
    let x90 ← x89.toTimestamp x4
    check 827 (decide (x90 = (ts 2017 10 6 8)))
    let x91 ← x89.duration x4
    check 827 (decide (x91 = 10))
    let x92 ← x89.endTime x4
    check 827 (decide (x92 = (ts 2017 10 6 17 59 59 + 999999999)))
    check 827 (decide (x89.label = (.str "A")))
    let x93 ← x89.isOnDuty x4 none
    check 827 (x93)
    let x94 ← key x4.schedules "team_A"
    let x95 ← x89.isOnDuty x4 (some x94)
    check 827 (x95)
    let x96 ← Workshift.new x4 13 none
    let x97 ← x96.toTimestamp x4
    check 827 (decide (x97 = (ts 2017 10 6 18)))
    let x98 ← x96.duration x4
    check 827 (decide (x98 = 8))
    let x99 ← x96.endTime x4
    check 827 (decide (x99 = (ts 2017 10 7 1 59 59 + 999999999)))
    check 827 (decide (x96.label = (.str "B")))
    let x100 ← x96.isOnDuty x4 none
    check 827 (x100)
    let x101 ← key x4.schedules "team_A"
    let x102 ← x96.isOnDuty x4 (some x101)
    check 827 (!(x102))
    pure ())

/- doc/source/making_a_timeboard.rst 870: results at line 875. -/
#guard passes (do
    let (x1, x2) ← Timeboard.new (L := V) { freq := (⟨none, .H, by decide⟩ : Freq), start := (ts 2017 10 2), stop := (ts 2017 10 10 1 59), layout := .organizer (.marker { each := (⟨none, .W none, by decide⟩ : Freq), ats := [fromStartOfEach (some { days := 0, hours := 2 }), fromStartOfEach (some { days := 5, hours := 2 })] }) [.label (.i 0), .organizerRP (.marker { each := (⟨none, .D, by decide⟩ : Freq), ats := [fromStartOfEach (some { hours := 2 }), fromStartOfEach (some { hours := 8 }), fromStartOfEach (some { hours := 18 })] }) 0], selector := V.truthy, defaultLabel := V.none } (((noHeap : Heap V)).set 0 (Cycle.start [(.str "A"), (.str "B"), (.str "C"), (.str "D")]))
    let (x3, x4) ← x1.addSchedule "team_A" (fun x => decide (x = (.str "A")))
    let x5 ← Workshift.new x4 0 none
    let x6 ← x5.toTimestamp x4
    check 875 (decide (x6 = (ts 2017 10 2)))
    let x7 ← x5.duration x4
    check 875 (decide (x7 = 2))
    let x8 ← x5.endTime x4
    check 875 (decide (x8 = (ts 2017 10 2 1 59 59 + 999999999)))
    check 875 (decide (x5.label = (.i 0)))
    let x9 ← x5.isOnDuty x4 none
    check 875 (!(x9))
    let x10 ← key x4.schedules "team_A"
    let x11 ← x5.isOnDuty x4 (some x10)
    check 875 (!(x11))
    let x12 ← Workshift.new x4 1 none
    let x13 ← x12.toTimestamp x4
    check 875 (decide (x13 = (ts 2017 10 2 2)))
    let x14 ← x12.duration x4
    check 875 (decide (x14 = 6))
    let x15 ← x12.endTime x4
    check 875 (decide (x15 = (ts 2017 10 2 7 59 59 + 999999999)))
    check 875 (decide (x12.label = (.str "A")))
    let x16 ← x12.isOnDuty x4 none
    check 875 (x16)
    let x17 ← key x4.schedules "team_A"
    let x18 ← x12.isOnDuty x4 (some x17)
    check 875 (x18)
    let x19 ← Workshift.new x4 2 none
    let x20 ← x19.toTimestamp x4
    check 875 (decide (x20 = (ts 2017 10 2 8)))
    let x21 ← x19.duration x4
    check 875 (decide (x21 = 10))
    let x22 ← x19.endTime x4
    check 875 (decide (x22 = (ts 2017 10 2 17 59 59 + 999999999)))
    check 875 (decide (x19.label = (.str "B")))
    let x23 ← x19.isOnDuty x4 none
    check 875 (x23)
    let x24 ← key x4.schedules "team_A"
    let x25 ← x19.isOnDuty x4 (some x24)
    check 875 (!(x25))
    let x26 ← Workshift.new x4 3 none
    let x27 ← x26.toTimestamp x4
    check 875 (decide (x27 = (ts 2017 10 2 18)))
    let x28 ← x26.duration x4
    check 875 (decide (x28 = 8))
    let x29 ← x26.endTime x4
    check 875 (decide (x29 = (ts 2017 10 3 1 59 59 + 999999999)))
    check 875 (decide (x26.label = (.str "C")))
    let x30 ← x26.isOnDuty x4 none
    check 875 (x30)
    let x31 ← key x4.schedules "team_A"
    let x32 ← x26.isOnDuty x4 (some x31)
    check 875 (!(x32))
    let x33 ← Workshift.new x4 4 none
    let x34 ← x33.toTimestamp x4
    check 875 (decide (x34 = (ts 2017 10 3 2)))
    let x35 ← x33.duration x4
    check 875 (decide (x35 = 6))
    let x36 ← x33.endTime x4
    check 875 (decide (x36 = (ts 2017 10 3 7 59 59 + 999999999)))
    check 875 (decide (x33.label = (.str "D")))
    let x37 ← x33.isOnDuty x4 none
    check 875 (x37)
    let x38 ← key x4.schedules "team_A"
    let x39 ← x33.isOnDuty x4 (some x38)
    check 875 (!(x39))
    let x40 ← Workshift.new x4 5 none
    let x41 ← x40.toTimestamp x4
    check 875 (decide (x41 = (ts 2017 10 3 8)))
    let x42 ← x40.duration x4
    check 875 (decide (x42 = 10))
    let x43 ← x40.endTime x4
    check 875 (decide (x43 = (ts 2017 10 3 17 59 59 + 999999999)))
    check 875 (decide (x40.label = (.str "A")))
    let x44 ← x40.isOnDuty x4 none
    check 875 (x44)
    let x45 ← key x4.schedules "team_A"
    let x46 ← x40.isOnDuty x4 (some x45)
    check 875 (x46)
    let x47 ← Workshift.new x4 6 none
    let x48 ← x47.toTimestamp x4
    check 875 (decide (x48 = (ts 2017 10 3 18)))
    let x49 ← x47.duration x4
    check 875 (decide (x49 = 8))
    let x50 ← x47.endTime x4
    check 875 (decide (x50 = (ts 2017 10 4 1 59 59 + 999999999)))
    check 875 (decide (x47.label = (.str "B")))
    let x51 ← x47.isOnDuty x4 none
    check 875 (x51)
    let x52 ← key x4.schedules "team_A"
    let x53 ← x47.isOnDuty x4 (some x52)
    check 875 (!(x53))
    let x54 ← Workshift.new x4 7 none
    let x55 ← x54.toTimestamp x4
    check 875 (decide (x55 = (ts 2017 10 4 2)))
    let x56 ← x54.duration x4
    check 875 (decide (x56 = 6))
    let x57 ← x54.endTime x4
    check 875 (decide (x57 = (ts 2017 10 4 7 59 59 + 999999999)))
    check 875 (decide (x54.label = (.str "C")))
    let x58 ← x54.isOnDuty x4 none
    check 875 (x58)
    let x59 ← key x4.schedules "team_A"
    let x60 ← x54.isOnDuty x4 (some x59)
    check 875 (!(x60))
    let x61 ← Workshift.new x4 8 none
    let x62 ← x61.toTimestamp x4
    check 875 (decide (x62 = (ts 2017 10 4 8)))
    let x63 ← x61.duration x4
    check 875 (decide (x63 = 10))
    let x64 ← x61.endTime x4
    check 875 (decide (x64 = (ts 2017 10 4 17 59 59 + 999999999)))
    check 875 (decide (x61.label = (.str "D")))
    let x65 ← x61.isOnDuty x4 none
    check 875 (x65)
    let x66 ← key x4.schedules "team_A"
    let x67 ← x61.isOnDuty x4 (some x66)
    check 875 (!(x67))
    let x68 ← Workshift.new x4 9 none
    let x69 ← x68.toTimestamp x4
    check 875 (decide (x69 = (ts 2017 10 4 18)))
    let x70 ← x68.duration x4
    check 875 (decide (x70 = 8))
    let x71 ← x68.endTime x4
    check 875 (decide (x71 = (ts 2017 10 5 1 59 59 + 999999999)))
    check 875 (decide (x68.label = (.str "A")))
    let x72 ← x68.isOnDuty x4 none
    check 875 (x72)
    let x73 ← key x4.schedules "team_A"
    let x74 ← x68.isOnDuty x4 (some x73)
    check 875 (x74)
    let x75 ← Workshift.new x4 10 none
    let x76 ← x75.toTimestamp x4
    check 875 (decide (x76 = (ts 2017 10 5 2)))
    let x77 ← x75.duration x4
    check 875 (decide (x77 = 6))
    let x78 ← x75.endTime x4
    check 875 (decide (x78 = (ts 2017 10 5 7 59 59 + 999999999)))
    check 875 (decide (x75.label = (.str "B")))
    let x79 ← x75.isOnDuty x4 none
    check 875 (x79)
    let x80 ← key x4.schedules "team_A"
    let x81 ← x75.isOnDuty x4 (some x80)
    check 875 (!(x81))
    let x82 ← Workshift.new x4 11 none
    let x83 ← x82.toTimestamp x4
    check 875 (decide (x83 = (ts 2017 10 5 8)))
    let x84 ← x82.duration x4
    check 875 (decide (x84 = 10))
    let x85 ← x82.endTime x4
    check 875 (decide (x85 = (ts 2017 10 5 17 59 59 + 999999999)))
    check 875 (decide (x82.label = (.str "C")))
    let x86 ← x82.isOnDuty x4 none
    check 875 (x86)
    let x87 ← key x4.schedules "team_A"
    let x88 ← x82.isOnDuty x4 (some x87)
    check 875 (!(x88))
    let x89 ← Workshift.new x4 12 none
    let x90 ← x89.toTimestamp x4
    check 875 (decide (x90 = (ts 2017 10 5 18)))
    let x91 ← x89.duration x4
    check 875 (decide (x91 = 8))
    let x92 ← x89.endTime x4
    check 875 (decide (x92 = (ts 2017 10 6 1 59 59 + 999999999)))
    check 875 (decide (x89.label = (.str "D")))
    let x93 ← x89.isOnDuty x4 none
    check 875 (x93)
    let x94 ← key x4.schedules "team_A"
    let x95 ← x89.isOnDuty x4 (some x94)
    check 875 (!(x95))
    let x96 ← Workshift.new x4 13 none
    let x97 ← x96.toTimestamp x4
    check 875 (decide (x97 = (ts 2017 10 6 2)))
    let x98 ← x96.duration x4
    check 875 (decide (x98 = 6))
    let x99 ← x96.endTime x4
    check 875 (decide (x99 = (ts 2017 10 6 7 59 59 + 999999999)))
    check 875 (decide (x96.label = (.str "A")))
    let x100 ← x96.isOnDuty x4 none
    check 875 (x100)
    let x101 ← key x4.schedules "team_A"
    let x102 ← x96.isOnDuty x4 (some x101)
    check 875 (x102)
    let x103 ← Workshift.new x4 14 none
    let x104 ← x103.toTimestamp x4
    check 875 (decide (x104 = (ts 2017 10 6 8)))
    let x105 ← x103.duration x4
    check 875 (decide (x105 = 10))
    let x106 ← x103.endTime x4
    check 875 (decide (x106 = (ts 2017 10 6 17 59 59 + 999999999)))
    check 875 (decide (x103.label = (.str "B")))
    let x107 ← x103.isOnDuty x4 none
    check 875 (x107)
    let x108 ← key x4.schedules "team_A"
    let x109 ← x103.isOnDuty x4 (some x108)
    check 875 (!(x109))
    let x110 ← Workshift.new x4 15 none
    let x111 ← x110.toTimestamp x4
    check 875 (decide (x111 = (ts 2017 10 6 18)))
    let x112 ← x110.duration x4
    check 875 (decide (x112 = 8))
    let x113 ← x110.endTime x4
    check 875 (decide (x113 = (ts 2017 10 7 1 59 59 + 999999999)))
    check 875 (decide (x110.label = (.str "C")))
    let x114 ← x110.isOnDuty x4 none
    check 875 (x114)
    let x115 ← key x4.schedules "team_A"
    let x116 ← x110.isOnDuty x4 (some x115)
    check 875 (!(x116))
    let x117 ← Workshift.new x4 16 none
    let x118 ← x117.toTimestamp x4
    check 875 (decide (x118 = (ts 2017 10 7 2)))
    let x119 ← x117.duration x4
    check 875 (decide (x119 = 48))
    let x120 ← x117.endTime x4
    check 875 (decide (x120 = (ts 2017 10 9 1 59 59 + 999999999)))
    check 875 (decide (x117.label = (.i 0)))
    let x121 ← x117.isOnDuty x4 none
    check 875 (!(x121))
    let x122 ← key x4.schedules "team_A"
    let x123 ← x117.isOnDuty x4 (some x122)
    check 875 (!(x123))
    let x124 ← Workshift.new x4 17 none
    let x125 ← x124.toTimestamp x4
    check 875 (decide (x125 = (ts 2017 10 9 2)))
    let x126 ← x124.duration x4
    check 875 (decide (x126 = 6))
    let x127 ← x124.endTime x4
    check 875 (decide (x127 = (ts 2017 10 9 7 59 59 + 999999999)))
    check 875 (decide (x124.label = (.str "D")))
    let x128 ← x124.isOnDuty x4 none
    check 875 (x128)
    let x129 ← key x4.schedules "team_A"
    let x130 ← x124.isOnDuty x4 (some x129)
    check 875 (!(x130))
    let x131 ← Workshift.new x4 18 none
    let x132 ← x131.toTimestamp x4
    check 875 (decide (x132 = (ts 2017 10 9 8)))
    let x133 ← x131.duration x4
    check 875 (decide (x133 = 10))
    let x134 ← x131.endTime x4
    check 875 (decide (x134 = (ts 2017 10 9 17 59 59 + 999999999)))
    check 875 (decide (x131.label = (.str "A")))
    let x135 ← x131.isOnDuty x4 none
    check 875 (x135)
    let x136 ← key x4.schedules "team_A"
    let x137 ← x131.isOnDuty x4 (some x136)
    check 875 (x137)
    let x138 ← Workshift.new x4 19 none
    let x139 ← x138.toTimestamp x4
    check 875 (decide (x139 = (ts 2017 10 9 18)))
    let x140 ← x138.duration x4
    check 875 (decide (x140 = 8))
    let x141 ← x138.endTime x4
    check 875 (decide (x141 = (ts 2017 10 10 1 59 59 + 999999999)))
    check 875 (decide (x138.label = (.str "B")))
    let x142 ← x138.isOnDuty x4 none
    check 875 (x142)
    let x143 ← key x4.schedules "team_A"
    let x144 ← x138.isOnDuty x4 (some x143)
    check 875 (!(x144))
    pure ())

/-- doc/source/making_a_timeboard.rst 927: results at line 927. -/
example : passes (do
    raises 927 [.unacceptablePeriod] (do
      let (x1, x2) ← Timeboard.new (L := V) { freq := (⟨none, .W none, by decide⟩ : Freq), start := (ts 2017 10 1), stop := (ts 2017 12 31), layout := .organizer (.marker { each := (⟨none, .M, by decide⟩ : Freq), ats := [] }) [.pattern (.list [(.i 1)])], selector := V.truthy, defaultLabel := V.none } (noHeap : Heap V)
      pure ())
    pure ()) = true := by decide +kernel

/-- doc/source/making_a_timeboard.rst 959: results at line 959. -/
example : passes (do
    raises 959 [.unacceptablePeriod] (do
      let (x1, x2) ← Timeboard.new (L := V) { freq := (⟨some 24, .H, by decide⟩ : Freq), start := (ts 2017 10 2), stop := (ts 2017 10 15), layout := .organizer (.marker { each := (⟨none, .W none, by decide⟩ : Freq), ats := [] }) [.pattern (.list [(.i 1)])], selector := V.truthy, defaultLabel := V.none } (noHeap : Heap V)
      pure ())
    pure ()) = true := by decide +kernel

/- doc/source/making_a_timeboard.rst 986: results at line 991. -/
#guard passes (do
    let (x1, x2) ← Timeboard.new (L := V) { freq := (⟨none, .H, by decide⟩ : Freq), start := (ts 2017 10 2), stop := (ts 2017 10 10 1 59), layout := .organizer (.marker { each := (⟨none, .W none, by decide⟩ : Freq), ats := [fromStartOfEach (some { days := 0, hours := 2 }), fromStartOfEach (some { days := 5, hours := 2 })] }) [.label (.i 0), .organizerRP (.marker { each := (⟨none, .D, by decide⟩ : Freq), ats := [fromStartOfEach (some { hours := 2 }), fromStartOfEach (some { hours := 8 }), fromStartOfEach (some { hours := 18 })] }) 0], selector := V.truthy, defaultLabel := V.none } (((noHeap : Heap V)).set 0 (Cycle.start [(.str "A"), (.str "B"), (.str "C"), (.str "D")]))
    let (x3, x4) ← x1.addSchedule "team_A" (fun x => decide (x = (.str "A")))
    let x5 ← Workshift.new x4 0 none
    let x6 ← x5.toTimestamp x4
    check 991 (decide (x6 = (ts 2017 10 2)))
    let x7 ← x5.duration x4
    check 991 (decide (x7 = 2))
    let x8 ← x5.endTime x4
    check 991 (decide (x8 = (ts 2017 10 2 1 59 59 + 999999999)))
    check 991 (decide (x5.label = (.i 0)))
    let x9 ← x5.isOnDuty x4 none
    check 991 (!(x9))
    let x10 ← key x4.schedules "team_A"
    let x11 ← x5.isOnDuty x4 (some x10)
    check 991 (!(x11))
    let x12 ← Workshift.new x4 1 none
    let x13 ← x12.toTimestamp x4
    check 991 (decide (x13 = (ts 2017 10 2 2)))
    let x14 ← x12.duration x4
    check 991 (decide (x14 = 6))
    let x15 ← x12.endTime x4
    check 991 (decide (x15 = (ts 2017 10 2 7 59 59 + 999999999)))
    check 991 (decide (x12.label = (.str "A")))
    let x16 ← x12.isOnDuty x4 none
    check 991 (x16)
    let x17 ← key x4.schedules "team_A"
    let x18 ← x12.isOnDuty x4 (some x17)
    check 991 (x18)
    let x19 ← Workshift.new x4 2 none
    let x20 ← x19.toTimestamp x4
    check 991 (decide (x20 = (ts 2017 10 2 8)))
    let x21 ← x19.duration x4
    check 991 (decide (x21 = 10))
    let x22 ← x19.endTime x4
    check 991 (decide (x22 = (ts 2017 10 2 17 59 59 + 999999999)))
    check 991 (decide (x19.label = (.str "B")))
    let x23 ← x19.isOnDuty x4 none
    check 991 (x23)
    let x24 ← key x4.schedules "team_A"
    let x25 ← x19.isOnDuty x4 (some x24)
    check 991 (!(x25))
    let x26 ← Workshift.new x4 3 none
    let x27 ← x26.toTimestamp x4
    check 991 (decide (x27 = (ts 2017 10 2 18)))
    let x28 ← x26.duration x4
    check 991 (decide (x28 = 8))
    let x29 ← x26.endTime x4
    check 991 (decide (x29 = (ts 2017 10 3 1 59 59 + 999999999)))
    check 991 (decide (x26.label = (.str "C")))
    let x30 ← x26.isOnDuty x4 none
    check 991 (x30)
    let x31 ← key x4.schedules "team_A"
    let x32 ← x26.isOnDuty x4 (some x31)
    check 991 (!(x32))
    let x33 ← Workshift.new x4 4 none
    let x34 ← x33.toTimestamp x4
    check 991 (decide (x34 = (ts 2017 10 3 2)))
    let x35 ← x33.duration x4
    check 991 (decide (x35 = 6))
    let x36 ← x33.endTime x4
    check 991 (decide (x36 = (ts 2017 10 3 7 59 59 + 999999999)))
    check 991 (decide (x33.label = (.str "D")))
    let x37 ← x33.isOnDuty x4 none
    check 991 (x37)
    let x38 ← key x4.schedules "team_A"
    let x39 ← x33.isOnDuty x4 (some x38)
    check 991 (!(x39))
    let x40 ← Workshift.new x4 5 none
    let x41 ← x40.toTimestamp x4
    check 991 (decide (x41 = (ts 2017 10 3 8)))
    let x42 ← x40.duration x4
    check 991 (decide (x42 = 10))
    let x43 ← x40.endTime x4
    check 991 (decide (x43 = (ts 2017 10 3 17 59 59 + 999999999)))
    check 991 (decide (x40.label = (.str "A")))
    let x44 ← x40.isOnDuty x4 none
    check 991 (x44)
    let x45 ← key x4.schedules "team_A"
    let x46 ← x40.isOnDuty x4 (some x45)
    check 991 (x46)
    let x47 ← Workshift.new x4 6 none
    let x48 ← x47.toTimestamp x4
    check 991 (decide (x48 = (ts 2017 10 3 18)))
    let x49 ← x47.duration x4
    check 991 (decide (x49 = 8))
    let x50 ← x47.endTime x4
    check 991 (decide (x50 = (ts 2017 10 4 1 59 59 + 999999999)))
    check 991 (decide (x47.label = (.str "B")))
    let x51 ← x47.isOnDuty x4 none
    check 991 (x51)
    let x52 ← key x4.schedules "team_A"
    let x53 ← x47.isOnDuty x4 (some x52)
    check 991 (!(x53))
    let x54 ← Workshift.new x4 7 none
    let x55 ← x54.toTimestamp x4
    check 991 (decide (x55 = (ts 2017 10 4 2)))
    let x56 ← x54.duration x4
    check 991 (decide (x56 = 6))
    let x57 ← x54.endTime x4
    check 991 (decide (x57 = (ts 2017 10 4 7 59 59 + 999999999)))
    check 991 (decide (x54.label = (.str "C")))
    let x58 ← x54.isOnDuty x4 none
    check 991 (x58)
    let x59 ← key x4.schedules "team_A"
    let x60 ← x54.isOnDuty x4 (some x59)
    check 991 (!(x60))
    let x61 ← Workshift.new x4 8 none
    let x62 ← x61.toTimestamp x4
    check 991 (decide (x62 = (ts 2017 10 4 8)))
    let x63 ← x61.duration x4
    check 991 (decide (x63 = 10))
    let x64 ← x61.endTime x4
    check 991 (decide (x64 = (ts 2017 10 4 17 59 59 + 999999999)))
    check 991 (decide (x61.label = (.str "D")))
    let x65 ← x61.isOnDuty x4 none
    check 991 (x65)
    let x66 ← key x4.schedules "team_A"
    let x67 ← x61.isOnDuty x4 (some x66)
    check 991 (!(x67))
    let x68 ← Workshift.new x4 9 none
    let x69 ← x68.toTimestamp x4
    check 991 (decide (x69 = (ts 2017 10 4 18)))
    let x70 ← x68.duration x4
    check 991 (decide (x70 = 8))
    let x71 ← x68.endTime x4
    check 991 (decide (x71 = (ts 2017 10 5 1 59 59 + 999999999)))
    check 991 (decide (x68.label = (.str "A")))
    let x72 ← x68.isOnDuty x4 none
    check 991 (x72)
    let x73 ← key x4.schedules "team_A"
    let x74 ← x68.isOnDuty x4 (some x73)
    check 991 (x74)
    let x75 ← Workshift.new x4 10 none
    let x76 ← x75.toTimestamp x4
    check 991 (decide (x76 = (ts 2017 10 5 2)))
    let x77 ← x75.duration x4
    check 991 (decide (x77 = 6))
    let x78 ← x75.endTime x4
    check 991 (decide (x78 = (ts 2017 10 5 7 59 59 + 999999999)))
    check 991 (decide (x75.label = (.str "B")))
    let x79 ← x75.isOnDuty x4 none
    check 991 (x79)
    let x80 ← key x4.schedules "team_A"
    let x81 ← x75.isOnDuty x4 (some x80)
    check 991 (!(x81))
    let x82 ← Workshift.new x4 11 none
    let x83 ← x82.toTimestamp x4
    check 991 (decide (x83 = (ts 2017 10 5 8)))
    let x84 ← x82.duration x4
    check 991 (decide (x84 = 10))
    let x85 ← x82.endTime x4
    check 991 (decide (x85 = (ts 2017 10 5 17 59 59 + 999999999)))
    check 991 (decide (x82.label = (.str "C")))
    let x86 ← x82.isOnDuty x4 none
    check 991 (x86)
    let x87 ← key x4.schedules "team_A"
    let x88 ← x82.isOnDuty x4 (some x87)
    check 991 (!(x88))
    let x89 ← Workshift.new x4 12 none
    let x90 ← x89.toTimestamp x4
    check 991 (decide (x90 = (ts 2017 10 5 18)))
    let x91 ← x89.duration x4
    check 991 (decide (x91 = 8))
    let x92 ← x89.endTime x4
    check 991 (decide (x92 = (ts 2017 10 6 1 59 59 + 999999999)))
    check 991 (decide (x89.label = (.str "D")))
    let x93 ← x89.isOnDuty x4 none
    check 991 (x93)
    let x94 ← key x4.schedules "team_A"
    let x95 ← x89.isOnDuty x4 (some x94)
    check 991 (!(x95))
    let x96 ← Workshift.new x4 13 none
    let x97 ← x96.toTimestamp x4
    check 991 (decide (x97 = (ts 2017 10 6 2)))
    let x98 ← x96.duration x4
    check 991 (decide (x98 = 6))
    let x99 ← x96.endTime x4
    check 991 (decide (x99 = (ts 2017 10 6 7 59 59 + 999999999)))
    check 991 (decide (x96.label = (.str "A")))
    let x100 ← x96.isOnDuty x4 none
    check 991 (x100)
    let x101 ← key x4.schedules "team_A"
    let x102 ← x96.isOnDuty x4 (some x101)
    check 991 (x102)
    let x103 ← Workshift.new x4 14 none
    let x104 ← x103.toTimestamp x4
    check 991 (decide (x104 = (ts 2017 10 6 8)))
    let x105 ← x103.duration x4
    check 991 (decide (x105 = 10))
    let x106 ← x103.endTime x4
    check 991 (decide (x106 = (ts 2017 10 6 17 59 59 + 999999999)))
    check 991 (decide (x103.label = (.str "B")))
    let x107 ← x103.isOnDuty x4 none
    check 991 (x107)
    let x108 ← key x4.schedules "team_A"
    let x109 ← x103.isOnDuty x4 (some x108)
    check 991 (!(x109))
    let x110 ← Workshift.new x4 15 none
    let x111 ← x110.toTimestamp x4
    check 991 (decide (x111 = (ts 2017 10 6 18)))
    let x112 ← x110.duration x4
    check 991 (decide (x112 = 8))
    let x113 ← x110.endTime x4
    check 991 (decide (x113 = (ts 2017 10 7 1 59 59 + 999999999)))
    check 991 (decide (x110.label = (.str "C")))
    let x114 ← x110.isOnDuty x4 none
    check 991 (x114)
    let x115 ← key x4.schedules "team_A"
    let x116 ← x110.isOnDuty x4 (some x115)
    check 991 (!(x116))
    let x117 ← Workshift.new x4 16 none
    let x118 ← x117.toTimestamp x4
    check 991 (decide (x118 = (ts 2017 10 7 2)))
    let x119 ← x117.duration x4
    check 991 (decide (x119 = 48))
    let x120 ← x117.endTime x4
    check 991 (decide (x120 = (ts 2017 10 9 1 59 59 + 999999999)))
    check 991 (decide (x117.label = (.i 0)))
    let x121 ← x117.isOnDuty x4 none
    check 991 (!(x121))
    let x122 ← key x4.schedules "team_A"
    let x123 ← x117.isOnDuty x4 (some x122)
    check 991 (!(x123))
    let x124 ← Workshift.new x4 17 none
    let x125 ← x124.toTimestamp x4
    check 991 (decide (x125 = (ts 2017 10 9 2)))
    let x126 ← x124.duration x4
    check 991 (decide (x126 = 6))
    let x127 ← x124.endTime x4
    check 991 (decide (x127 = (ts 2017 10 9 7 59 59 + 999999999)))
    check 991 (decide (x124.label = (.str "D")))
    let x128 ← x124.isOnDuty x4 none
    check 991 (x128)
    let x129 ← key x4.schedules "team_A"
    let x130 ← x124.isOnDuty x4 (some x129)
    check 991 (!(x130))
    let x131 ← Workshift.new x4 18 none
    let x132 ← x131.toTimestamp x4
    check 991 (decide (x132 = (ts 2017 10 9 8)))
    let x133 ← x131.duration x4
    check 991 (decide (x133 = 10))
    let x134 ← x131.endTime x4
    check 991 (decide (x134 = (ts 2017 10 9 17 59 59 + 999999999)))
    check 991 (decide (x131.label = (.str "A")))
    let x135 ← x131.isOnDuty x4 none
    check 991 (x135)
    let x136 ← key x4.schedules "team_A"
    let x137 ← x131.isOnDuty x4 (some x136)
    check 991 (x137)
    let x138 ← Workshift.new x4 19 none
    let x139 ← x138.toTimestamp x4
    check 991 (decide (x139 = (ts 2017 10 9 18)))
    let x140 ← x138.duration x4
    check 991 (decide (x140 = 8))
    let x141 ← x138.endTime x4
    check 991 (decide (x141 = (ts 2017 10 10 1 59 59 + 999999999)))
    check 991 (decide (x138.label = (.str "B")))
    let x142 ← x138.isOnDuty x4 none
    check 991 (x142)
    let x143 ← key x4.schedules "team_A"
    let x144 ← x138.isOnDuty x4 (some x143)
    check 991 (!(x144))
    pure ())

/- doc/source/making_a_timeboard.rst 1022: results at line 1025. -/
#guard passes (do
    let (x1, x2) ← Timeboard.new (L := V) { freq := (⟨none, .H, by decide⟩ : Freq), start := (ts 2017 10 2), stop := (ts 2017 10 10 1 59), layout := .organizer (.marker { each := (⟨none, .W none, by decide⟩ : Freq), ats := [fromStartOfEach (some { days := 0, hours := 2 }), fromStartOfEach (some { days := 5, hours := 2 })] }) [.label (.i 0), .organizerRP (.marker { each := (⟨none, .D, by decide⟩ : Freq), ats := [fromStartOfEach (some { hours := 2 }), fromStartOfEach (some { hours := 8 }), fromStartOfEach (some { hours := 18 })] }) 0], selector := V.truthy, defaultLabel := V.none } (((noHeap : Heap V)).set 0 (Cycle.start [(.str "A"), (.str "B"), (.str "C"), (.str "D")]))
    let (x3, x4) ← Timeboard.new (L := V) { freq := (⟨none, .H, by decide⟩ : Freq), start := (ts 2017 10 2 2), stop := (ts 2017 10 10 1 59), layout := .organizer (.marker { each := (⟨none, .W none, by decide⟩ : Freq), ats := [fromStartOfEach (some { days := 0, hours := 2 }), fromStartOfEach (some { days := 5, hours := 2 })] }) [.label (.i 0), .organizerRP (.marker { each := (⟨none, .D, by decide⟩ : Freq), ats := [fromStartOfEach (some { hours := 2 }), fromStartOfEach (some { hours := 8 }), fromStartOfEach (some { hours := 18 })] }) 0], selector := V.truthy, defaultLabel := V.none } x2
    let x5 ← Workshift.new x3 0 none
    let x6 ← x5.toTimestamp x3
    check 1025 (decide (x6 = (ts 2017 10 2 2)))
    let x7 ← x5.duration x3
    check 1025 (decide (x7 = 120))
    let x8 ← x5.endTime x3
    check 1025 (decide (x8 = (ts 2017 10 7 1 59 59 + 999999999)))
    check 1025 (decide (x5.label = (.i 0)))
    let x9 ← x5.isOnDuty x3 none
    check 1025 (!(x9))
    let x10 ← Workshift.new x3 1 none
    let x11 ← x10.toTimestamp x3
    check 1025 (decide (x11 = (ts 2017 10 7 2)))
    let x12 ← x10.duration x3
    check 1025 (decide (x12 = 6))
    let x13 ← x10.endTime x3
    check 1025 (decide (x13 = (ts 2017 10 7 7 59 59 + 999999999)))
    check 1025 (decide (x10.label = (.str "C")))
    let x14 ← x10.isOnDuty x3 none
    check 1025 (x14)
    let x15 ← Workshift.new x3 2 none
    let x16 ← x15.toTimestamp x3
    check 1025 (decide (x16 = (ts 2017 10 7 8)))
    let x17 ← x15.duration x3
    check 1025 (decide (x17 = 10))
    let x18 ← x15.endTime x3
    check 1025 (decide (x18 = (ts 2017 10 7 17 59 59 + 999999999)))
    check 1025 (decide (x15.label = (.str "D")))
    let x19 ← x15.isOnDuty x3 none
    check 1025 (x19)
    let x20 ← Workshift.new x3 3 none
    let x21 ← x20.toTimestamp x3
    check 1025 (decide (x21 = (ts 2017 10 7 18)))
    let x22 ← x20.duration x3
    check 1025 (decide (x22 = 8))
    let x23 ← x20.endTime x3
    check 1025 (decide (x23 = (ts 2017 10 8 1 59 59 + 999999999)))
    check 1025 (decide (x20.label = (.str "A")))
    let x24 ← x20.isOnDuty x3 none
    check 1025 (x24)
    let x25 ← Workshift.new x3 4 none
    let x26 ← x25.toTimestamp x3
    check 1025 (decide (x26 = (ts 2017 10 8 2)))
    let x27 ← x25.duration x3
    check 1025 (decide (x27 = 6))
    let x28 ← x25.endTime x3
    check 1025 (decide (x28 = (ts 2017 10 8 7 59 59 + 999999999)))
    check 1025 (decide (x25.label = (.str "B")))
    let x29 ← x25.isOnDuty x3 none
    check 1025 (x29)
    let x30 ← Workshift.new x3 5 none
    let x31 ← x30.toTimestamp x3
    check 1025 (decide (x31 = (ts 2017 10 8 8)))
    let x32 ← x30.duration x3
    check 1025 (decide (x32 = 10))
    let x33 ← x30.endTime x3
    check 1025 (decide (x33 = (ts 2017 10 8 17 59 59 + 999999999)))
    check 1025 (decide (x30.label = (.str "C")))
    let x34 ← x30.isOnDuty x3 none
    check 1025 (x34)
    let x35 ← Workshift.new x3 6 none
    let x36 ← x35.toTimestamp x3
    check 1025 (decide (x36 = (ts 2017 10 8 18)))
    let x37 ← x35.duration x3
    check 1025 (decide (x37 = 8))
    let x38 ← x35.endTime x3
    check 1025 (decide (x38 = (ts 2017 10 9 1 59 59 + 999999999)))
    check 1025 (decide (x35.label = (.str "D")))
    let x39 ← x35.isOnDuty x3 none
    check 1025 (x39)
    let x40 ← Workshift.new x3 7 none
    let x41 ← x40.toTimestamp x3
    check 1025 (decide (x41 = (ts 2017 10 9 2)))
    let x42 ← x40.duration x3
    check 1025 (decide (x42 = 24))
    let x43 ← x40.endTime x3
    check 1025 (decide (x43 = (ts 2017 10 10 1 59 59 + 999999999)))
    check 1025 (decide (x40.label = (.i 0)))
    let x44 ← x40.isOnDuty x3 none
    check 1025 (!(x44))
    pure ())

end TB.Conf
