import Verif.Conformance.Support
/-!
# Examples of `doc/source/doing_calculations.rst`

Generated by `tools/doc_examples.py`.  One example per session of the documentation: the printed results are those
of the model.  These are checks of the model on single inputs, not proofs of properties.
-/
set_option linter.unusedVariables false
set_option maxRecDepth 8192
namespace TB.Conf

/-- doc/source/doing_calculations.rst 26: results at lines 28, 33, 40, 52, 54. -/
example : passes (do
    let (x1, x2) ← Timeboard.new (L := V) { freq := (⟨none, .D, by decide⟩ : Freq), start := (ts 2017 9 30), stop := (ts 2017 10 11), layout := .pattern (.list [(.i 0), (.i 1), (.i 0), (.i 2)]), selector := V.truthy, defaultLabel := V.none } (noHeap : Heap V)
    let x3 ← x1.getWorkshift (ts 2017 10 1) none
    check 28 (decide (x3.loc = 1))
    check 28 (decide (x3.schedule.name = "on_duty"))
    let x4 ← x3.duration x1
    check 28 (decide (x4 = 1))
    let x5 ← x3.startTime x1
    check 28 (decide (x5 = (ts 2017 10 1)))
    let x6 ← x1.call1 (.point (ts 2017 10 1))
    let x7 ← asWs x6
    check 33 (decide (x7.loc = 1))
    check 33 (decide (x7.schedule.name = "on_duty"))
    let x8 ← x7.duration x1
    check 33 (decide (x8 = 1))
    let x9 ← x7.startTime x1
    check 33 (decide (x9 = (ts 2017 10 1)))
    let x10 ← Workshift.new x1 1 none
    check 40 (decide (x10.loc = 1))
    check 40 (decide (x10.schedule.name = "on_duty"))
    let x11 ← x10.duration x1
    check 40 (decide (x11 = 1))
    let x12 ← x10.startTime x1
    check 40 (decide (x12 = (ts 2017 10 1)))
    let (x13, x14) ← x1.addSchedule "my_schedule" (fun x => x.gt (1 : Rat))
    let x15 ← x14.getWorkshift (ts 2017 10 1) (some x13)
    check 52 (decide (x15.loc = 1))
    check 52 (decide (x15.schedule.name = "my_schedule"))
    let x16 ← x15.duration x14
    check 52 (decide (x16 = 1))
    let x17 ← x15.startTime x14
    check 52 (decide (x17 = (ts 2017 10 1)))
    let x18 ← Workshift.new x14 1 (some x13)
    check 54 (decide (x18.loc = 1))
    check 54 (decide (x18.schedule.name = "my_schedule"))
    let x19 ← x18.duration x14
    check 54 (decide (x19 = 1))
    let x20 ← x18.startTime x14
    check 54 (decide (x20 = (ts 2017 10 1)))
    pure ()) = true := by decide +kernel

/-- doc/source/doing_calculations.rst 115: results at lines 129, 131, 136, 138. -/
example : passes (do
    let (x1, x2) ← Timeboard.new (L := V) { freq := (⟨none, .D, by decide⟩ : Freq), start := (ts 2017 9 30), stop := (ts 2017 10 11), layout := .pattern (.list [(.i 0), (.i 1), (.i 0), (.i 2)]), selector := V.truthy, defaultLabel := V.none } (noHeap : Heap V)
    let (x3, x4) ← x1.addSchedule "my_schedule" (fun x => x.gt (1 : Rat))
    let x5 ← x4.getWorkshift (ts 2017 10 1) none
    let x6 ← x4.getWorkshift (ts 2017 10 1) (some x3)
    let x7 ← x5.isOnDuty x4 none
    check 129 (x7)
    let x8 ← x6.isOnDuty x4 (some x4.defaultSchedule)
    check 131 (x8)
    let x9 ← x5.isOnDuty x4 (some x3)
    check 136 (!(x9))
    let x10 ← x6.isOnDuty x4 none
    check 138 (!(x10))
    pure ()) = true := by decide +kernel

/-- doc/source/doing_calculations.rst 152: results at lines 156, 158, 160, 162, 164, 166. -/
example : passes (do
    let (x1, x2) ← Timeboard.new (L := V) { freq := (⟨none, .D, by decide⟩ : Freq), start := (ts 2017 9 30), stop := (ts 2017 10 11), layout := .pattern (.list [(.i 4), (.i 8), (.i 4), (.i 8)]), selector := (fun x => x.gt (4 : Rat)), defaultLabel := V.none } (noHeap : Heap V)
    let x3 ← Workshift.new x1 3 none
    check 156 (decide (x3.label = (.i 8)))
    let x4 ← x3.duration x1
    check 158 (decide (x4 = 1))
    let x5 ← x3.isOnDuty x1 none
    check 160 (x5)
    let x6 ← x3.worktime x1 V.num? .on none
    check 162 (decide (x6 = (1 : Rat)))
    let x7 ← x3.worktime x1 V.num? .off none
    check 164 (decide (x7 = (0 : Rat)))
    let x8 ← x3.worktime x1 V.num? .any none
    check 166 (decide (x8 = (1 : Rat)))
    pure ()) = true := by decide +kernel

/-- doc/source/doing_calculations.rst 171: results at lines 179, 181, 183, 189, 191, 193, 195, 197. -/
example : passes (do
    let (x1, x2) ← Timeboard.new (L := V) { freq := (⟨none, .D, by decide⟩ : Freq), start := (ts 2017 9 30), stop := (ts 2017 10 11), layout := .pattern (.list [(.i 4), (.i 8), (.i 4), (.i 8)]), selector := (fun x => x.gt (4 : Rat)), defaultLabel := V.none, worktimeSource := "labels" } (noHeap : Heap V)
    let x3 ← Workshift.new x1 3 none
    let x4 ← x3.worktime x1 V.num? .on none
    check 179 (decide (x4 = (8 : Rat)))
    let x5 ← x3.worktime x1 V.num? .off none
    check 181 (decide (x5 = (0 : Rat)))
    let x6 ← x3.worktime x1 V.num? .any none
    check 183 (decide (x6 = (8 : Rat)))
    let x7 ← Workshift.new x1 2 none
    check 189 (decide (x7.label = (.i 4)))
    let x8 ← x7.isOffDuty x1 none
    check 191 (x8)
    let x9 ← x7.worktime x1 V.num? .on none
    check 193 (decide (x9 = (0 : Rat)))
    let x10 ← x7.worktime x1 V.num? .off none
    check 195 (decide (x10 = (4 : Rat)))
    let x11 ← x7.worktime x1 V.num? .any none
    check 197 (decide (x11 = (4 : Rat)))
    pure ()) = true := by decide +kernel

/-- doc/source/doing_calculations.rst 216: results at lines 218, 238, 240, 245, 247, 252, 254, 259, 261, 268, 270, 275, 277, 282, 284, 289, 291, 301, 303, 315, 317, 324, 333, 335, 342, 344. -/
example : passes (do
    let (x1, x2) ← Timeboard.new (L := V) { freq := (⟨none, .D, by decide⟩ : Freq), start := (ts 2017 9 30), stop := (ts 2017 10 11), layout := .pattern (.list [(.i 0), (.i 1), (.i 0), (.i 2)]), selector := V.truthy, defaultLabel := V.none } (noHeap : Heap V)
    let x3 ← Workshift.new x1 0 none
    let x4 ← x3.startTime x1
    check 218 (decide (x4 = (ts 2017 9 30)))
    let x5 ← x3.duration x1
    check 218 (decide (x5 = 1))
    let x6 ← x3.endTime x1
    check 218 (decide (x6 = (ts 2017 9 30 23 59 59 + 999999999)))
    check 218 (decide (x3.label = (.num (0 : Rat))))
    let x7 ← x3.isOnDuty x1 none
    check 218 (!(x7))
    let x8 ← Workshift.new x1 1 none
    let x9 ← x8.startTime x1
    check 218 (decide (x9 = (ts 2017 10 1)))
    let x10 ← x8.duration x1
    check 218 (decide (x10 = 1))
    let x11 ← x8.endTime x1
    check 218 (decide (x11 = (ts 2017 10 1 23 59 59 + 999999999)))
    check 218 (decide (x8.label = (.num (1 : Rat))))
    let x12 ← x8.isOnDuty x1 none
    check 218 (x12)
    let x13 ← Workshift.new x1 2 none
    let x14 ← x13.startTime x1
    check 218 (decide (x14 = (ts 2017 10 2)))
    let x15 ← x13.duration x1
    check 218 (decide (x15 = 1))
    let x16 ← x13.endTime x1
    check 218 (decide (x16 = (ts 2017 10 2 23 59 59 + 999999999)))
    check 218 (decide (x13.label = (.num (0 : Rat))))
    let x17 ← x13.isOnDuty x1 none
    check 218 (!(x17))
    let x18 ← Workshift.new x1 3 none
    let x19 ← x18.startTime x1
    check 218 (decide (x19 = (ts 2017 10 3)))
    let x20 ← x18.duration x1
    check 218 (decide (x20 = 1))
    let x21 ← x18.endTime x1
    check 218 (decide (x21 = (ts 2017 10 3 23 59 59 + 999999999)))
    check 218 (decide (x18.label = (.num (2 : Rat))))
    let x22 ← x18.isOnDuty x1 none
    check 218 (x22)
    let x23 ← Workshift.new x1 4 none
    let x24 ← x23.startTime x1
    check 218 (decide (x24 = (ts 2017 10 4)))
    let x25 ← x23.duration x1
    check 218 (decide (x25 = 1))
    let x26 ← x23.endTime x1
    check 218 (decide (x26 = (ts 2017 10 4 23 59 59 + 999999999)))
    check 218 (decide (x23.label = (.num (0 : Rat))))
    let x27 ← x23.isOnDuty x1 none
    check 218 (!(x27))
    let x28 ← Workshift.new x1 5 none
    let x29 ← x28.startTime x1
    check 218 (decide (x29 = (ts 2017 10 5)))
    let x30 ← x28.duration x1
    check 218 (decide (x30 = 1))
    let x31 ← x28.endTime x1
    check 218 (decide (x31 = (ts 2017 10 5 23 59 59 + 999999999)))
    check 218 (decide (x28.label = (.num (1 : Rat))))
    let x32 ← x28.isOnDuty x1 none
    check 218 (x32)
    let x33 ← Workshift.new x1 6 none
    let x34 ← x33.startTime x1
    check 218 (decide (x34 = (ts 2017 10 6)))
    let x35 ← x33.duration x1
    check 218 (decide (x35 = 1))
    let x36 ← x33.endTime x1
    check 218 (decide (x36 = (ts 2017 10 6 23 59 59 + 999999999)))
    check 218 (decide (x33.label = (.num (0 : Rat))))
    let x37 ← x33.isOnDuty x1 none
    check 218 (!(x37))
    let x38 ← Workshift.new x1 7 none
    let x39 ← x38.startTime x1
    check 218 (decide (x39 = (ts 2017 10 7)))
    let x40 ← x38.duration x1
    check 218 (decide (x40 = 1))
    let x41 ← x38.endTime x1
    check 218 (decide (x41 = (ts 2017 10 7 23 59 59 + 999999999)))
    check 218 (decide (x38.label = (.num (2 : Rat))))
    let x42 ← x38.isOnDuty x1 none
    check 218 (x42)
    let x43 ← Workshift.new x1 8 none
    let x44 ← x43.startTime x1
    check 218 (decide (x44 = (ts 2017 10 8)))
    let x45 ← x43.duration x1
    check 218 (decide (x45 = 1))
    let x46 ← x43.endTime x1
    check 218 (decide (x46 = (ts 2017 10 8 23 59 59 + 999999999)))
    check 218 (decide (x43.label = (.num (0 : Rat))))
    let x47 ← x43.isOnDuty x1 none
    check 218 (!(x47))
    let x48 ← Workshift.new x1 9 none
    let x49 ← x48.startTime x1
    check 218 (decide (x49 = (ts 2017 10 9)))
    let x50 ← x48.duration x1
    check 218 (decide (x50 = 1))
    let x51 ← x48.endTime x1
    check 218 (decide (x51 = (ts 2017 10 9 23 59 59 + 999999999)))
    check 218 (decide (x48.label = (.num (1 : Rat))))
    let x52 ← x48.isOnDuty x1 none
    check 218 (x52)
    let x53 ← Workshift.new x1 10 none
    let x54 ← x53.startTime x1
    check 218 (decide (x54 = (ts 2017 10 10)))
    let x55 ← x53.duration x1
    check 218 (decide (x55 = 1))
    let x56 ← x53.endTime x1
    check 218 (decide (x56 = (ts 2017 10 10 23 59 59 + 999999999)))
    check 218 (decide (x53.label = (.num (0 : Rat))))
    let x57 ← x53.isOnDuty x1 none
    check 218 (!(x57))
    let x58 ← Workshift.new x1 11 none
    let x59 ← x58.startTime x1
    check 218 (decide (x59 = (ts 2017 10 11)))
    let x60 ← x58.duration x1
    check 218 (decide (x60 = 1))
    let x61 ← x58.endTime x1
    check 218 (decide (x61 = (ts 2017 10 11 23 59 59 + 999999999)))
    check 218 (decide (x58.label = (.num (2 : Rat))))
    let x62 ← x58.isOnDuty x1 none
    check 218 (x62)
    let x63 ← x1.call1 (.point (ts 2017 10 5))
    let x64 ← asWs x63
    let x65 ← x64.rollforward x1 0 .on none
    check 238 (decide (x65.loc = 5))
    check 238 (decide (x65.schedule.name = "on_duty"))
    let x66 ← x65.duration x1
    check 238 (decide (x66 = 1))
    let x67 ← x65.startTime x1
    check 238 (decide (x67 = (ts 2017 10 5)))
    let x68 ← x1.call1 (.point (ts 2017 10 6))
    let x69 ← asWs x68
    let x70 ← x69.rollforward x1 0 .on none
    check 240 (decide (x70.loc = 7))
    check 240 (decide (x70.schedule.name = "on_duty"))
    let x71 ← x70.duration x1
    check 240 (decide (x71 = 1))
    let x72 ← x70.startTime x1
    check 240 (decide (x72 = (ts 2017 10 7)))
    let x73 ← x1.call1 (.point (ts 2017 10 5))
    let x74 ← asWs x73
    let x75 ← x74.rollback x1 0 .on none
    check 245 (decide (x75.loc = 5))
    check 245 (decide (x75.schedule.name = "on_duty"))
    let x76 ← x75.duration x1
    check 245 (decide (x76 = 1))
    let x77 ← x75.startTime x1
    check 245 (decide (x77 = (ts 2017 10 5)))
    let x78 ← x1.call1 (.point (ts 2017 10 6))
    let x79 ← asWs x78
    let x80 ← x79.rollback x1 0 .on none
    check 247 (decide (x80.loc = 5))
    check 247 (decide (x80.schedule.name = "on_duty"))
    let x81 ← x80.duration x1
    check 247 (decide (x81 = 1))
    let x82 ← x80.startTime x1
    check 247 (decide (x82 = (ts 2017 10 5)))
    let x83 ← x1.call1 (.point (ts 2017 10 5))
    let x84 ← asWs x83
    let x85 ← x84.rollforward x1 0 .off none
    check 252 (decide (x85.loc = 6))
    check 252 (decide (x85.schedule.name = "on_duty"))
    let x86 ← x85.duration x1
    check 252 (decide (x86 = 1))
    let x87 ← x85.startTime x1
    check 252 (decide (x87 = (ts 2017 10 6)))
    let x88 ← x1.call1 (.point (ts 2017 10 6))
    let x89 ← asWs x88
    let x90 ← x89.rollforward x1 0 .off none
    check 254 (decide (x90.loc = 6))
    check 254 (decide (x90.schedule.name = "on_duty"))
    let x91 ← x90.duration x1
    check 254 (decide (x91 = 1))
    let x92 ← x90.startTime x1
    check 254 (decide (x92 = (ts 2017 10 6)))
    let x93 ← x1.call1 (.point (ts 2017 10 5))
    let x94 ← asWs x93
    let x95 ← x94.rollback x1 0 .off none
    check 259 (decide (x95.loc = 4))
    check 259 (decide (x95.schedule.name = "on_duty"))
    let x96 ← x95.duration x1
    check 259 (decide (x96 = 1))
    let x97 ← x95.startTime x1
    check 259 (decide (x97 = (ts 2017 10 4)))
    let x98 ← x1.call1 (.point (ts 2017 10 6))
    let x99 ← asWs x98
    let x100 ← x99.rollback x1 0 .off none
    check 261 (decide (x100.loc = 6))
    check 261 (decide (x100.schedule.name = "on_duty"))
    let x101 ← x100.duration x1
    check 261 (decide (x101 = 1))
    let x102 ← x100.startTime x1
    check 261 (decide (x102 = (ts 2017 10 6)))
    let x103 ← x1.call1 (.point (ts 2017 10 5))
    let x104 ← asWs x103
    let x105 ← x104.rollforward x1 2 .on none
    check 268 (decide (x105.loc = 9))
    check 268 (decide (x105.schedule.name = "on_duty"))
    let x106 ← x105.duration x1
    check 268 (decide (x106 = 1))
    let x107 ← x105.startTime x1
    check 268 (decide (x107 = (ts 2017 10 9)))
    let x108 ← x1.call1 (.point (ts 2017 10 6))
    let x109 ← asWs x108
    let x110 ← x109.rollforward x1 2 .on none
    check 270 (decide (x110.loc = 11))
    check 270 (decide (x110.schedule.name = "on_duty"))
    let x111 ← x110.duration x1
    check 270 (decide (x111 = 1))
    let x112 ← x110.startTime x1
    check 270 (decide (x112 = (ts 2017 10 11)))
    let x113 ← x1.call1 (.point (ts 2017 10 5))
    let x114 ← asWs x113
    let x115 ← x114.rollback x1 2 .on none
    check 275 (decide (x115.loc = 1))
    check 275 (decide (x115.schedule.name = "on_duty"))
    let x116 ← x115.duration x1
    check 275 (decide (x116 = 1))
    let x117 ← x115.startTime x1
    check 275 (decide (x117 = (ts 2017 10 1)))
    let x118 ← x1.call1 (.point (ts 2017 10 6))
    let x119 ← asWs x118
    let x120 ← x119.rollback x1 2 .on none
    check 277 (decide (x120.loc = 1))
    check 277 (decide (x120.schedule.name = "on_duty"))
    let x121 ← x120.duration x1
    check 277 (decide (x121 = 1))
    let x122 ← x120.startTime x1
    check 277 (decide (x122 = (ts 2017 10 1)))
    let x123 ← x1.call1 (.point (ts 2017 10 5))
    let x124 ← asWs x123
    let x125 ← x124.rollforward x1 2 .off none
    check 282 (decide (x125.loc = 10))
    check 282 (decide (x125.schedule.name = "on_duty"))
    let x126 ← x125.duration x1
    check 282 (decide (x126 = 1))
    let x127 ← x125.startTime x1
    check 282 (decide (x127 = (ts 2017 10 10)))
    let x128 ← x1.call1 (.point (ts 2017 10 6))
    let x129 ← asWs x128
    let x130 ← x129.rollforward x1 2 .off none
    check 284 (decide (x130.loc = 10))
    check 284 (decide (x130.schedule.name = "on_duty"))
    let x131 ← x130.duration x1
    check 284 (decide (x131 = 1))
    let x132 ← x130.startTime x1
    check 284 (decide (x132 = (ts 2017 10 10)))
    let x133 ← x1.call1 (.point (ts 2017 10 5))
    let x134 ← asWs x133
    let x135 ← x134.rollback x1 2 .off none
    check 289 (decide (x135.loc = 0))
    check 289 (decide (x135.schedule.name = "on_duty"))
    let x136 ← x135.duration x1
    check 289 (decide (x136 = 1))
    let x137 ← x135.startTime x1
    check 289 (decide (x137 = (ts 2017 9 30)))
    let x138 ← x1.call1 (.point (ts 2017 10 6))
    let x139 ← asWs x138
    let x140 ← x139.rollback x1 2 .off none
    check 291 (decide (x140.loc = 2))
    check 291 (decide (x140.schedule.name = "on_duty"))
    let x141 ← x140.duration x1
    check 291 (decide (x141 = 1))
    let x142 ← x140.startTime x1
    check 291 (decide (x142 = (ts 2017 10 2)))
    let (x143, x144) ← x1.addSchedule "my_schedule" (fun x => x.gt (1 : Rat))
    let x145 ← x144.call1 (.point (ts 2017 10 5))
    let x146 ← asWs x145
    let x147 ← x146.rollforward x144 0 .on (some x143)
    check 301 (decide (x147.loc = 7))
    check 301 (decide (x147.schedule.name = "my_schedule"))
    let x148 ← x147.duration x144
    check 301 (decide (x148 = 1))
    let x149 ← x147.startTime x144
    check 301 (decide (x149 = (ts 2017 10 7)))
    let x150 ← x147.rollforward x144 1 .on none
    check 303 (decide (x150.loc = 11))
    check 303 (decide (x150.schedule.name = "my_schedule"))
    let x151 ← x150.duration x144
    check 303 (decide (x151 = 1))
    let x152 ← x150.startTime x144
    check 303 (decide (x152 = (ts 2017 10 11)))
    let x153 ← x144.call1 (.point (ts 2017 10 5))
    let x154 ← asWs x153
    let x155 ← x154.add x144 1
    check 315 (decide (x155.loc = 7))
    check 315 (decide (x155.schedule.name = "on_duty"))
    let x156 ← x155.duration x144
    check 315 (decide (x156 = 1))
    let x157 ← x155.startTime x144
    check 315 (decide (x157 = (ts 2017 10 7)))
    let x158 ← x144.call1 (.point (ts 2017 10 6))
    let x159 ← asWs x158
    let x160 ← x159.sub x144 1
    check 317 (decide (x160.loc = 3))
    check 317 (decide (x160.schedule.name = "on_duty"))
    let x161 ← x160.duration x144
    check 317 (decide (x161 = 1))
    let x162 ← x160.startTime x144
    check 317 (decide (x162 = (ts 2017 10 3)))
    let x163 ← x144.getWorkshift (ts 2017 10 5) (some x143)
    let x164 ← x163.add x144 1
    check 324 (decide (x164.loc = 11))
    check 324 (decide (x164.schedule.name = "my_schedule"))
    let x165 ← x164.duration x144
    check 324 (decide (x165 = 1))
    let x166 ← x164.startTime x144
    check 324 (decide (x166 = (ts 2017 10 11)))
    let x167 ← x144.call1 (.point (ts 2017 10 6))
    let x168 ← asWs x167
    let x169 ← x168.rollforward x144 (-1) .on none
    check 333 (decide (x169.loc = 5))
    check 333 (decide (x169.schedule.name = "on_duty"))
    let x170 ← x169.duration x144
    check 333 (decide (x170 = 1))
    let x171 ← x169.startTime x144
    check 333 (decide (x171 = (ts 2017 10 5)))
    let x172 ← x144.call1 (.point (ts 2017 10 6))
    let x173 ← asWs x172
    let x174 ← x173.rollback x144 1 .on none
    check 335 (decide (x174.loc = 3))
    check 335 (decide (x174.schedule.name = "on_duty"))
    let x175 ← x174.duration x144
    check 335 (decide (x175 = 1))
    let x176 ← x174.startTime x144
    check 335 (decide (x176 = (ts 2017 10 3)))
    let x177 ← x144.call1 (.point (ts 2017 10 5))
    let x178 ← asWs x177
    let x179 ← x178.rollback x144 (-1) .off none
    check 342 (decide (x179.loc = 6))
    check 342 (decide (x179.schedule.name = "on_duty"))
    let x180 ← x179.duration x144
    check 342 (decide (x180 = 1))
    let x181 ← x179.startTime x144
    check 342 (decide (x181 = (ts 2017 10 6)))
    let x182 ← x144.call1 (.point (ts 2017 10 5))
    let x183 ← asWs x182
    let x184 ← x183.rollforward x144 1 .off none
    check 344 (decide (x184.loc = 8))
    check 344 (decide (x184.schedule.name = "on_duty"))
    let x185 ← x184.duration x144
    check 344 (decide (x185 = 1))
    let x186 ← x184.startTime x144
    check 344 (decide (x186 = (ts 2017 10 8)))
    pure ()) = true := by decide +kernel

/-- doc/source/doing_calculations.rst 385: results at lines 387, 392, 399, 404, 406, 411, 416, 422, 427, 434, 439, 445, 450, 457, 460, 465, 470, 480, 485, 500, 502, 504. -/
example : passes (do
    let (x1, x2) ← Timeboard.new (L := V) { freq := (⟨none, .D, by decide⟩ : Freq), start := (ts 2017 9 30), stop := (ts 2017 10 15), layout := .pattern (.list [(.i 0), (.i 1), (.i 0), (.i 2)]), selector := V.truthy, defaultLabel := V.none } (noHeap : Heap V)
    let x3 ← x1.getInterval (some (.pair (some (ts 2017 10 2)) (some (ts 2017 10 8)))) none none true "11" none
    check 387 (decide ((x3.lo, x3.hi) = (2, 8)))
    check 387 (decide (x3.schedule.name = "on_duty"))
    check 387 (decide (x3.len = 7))
    let x4 ← x1.call1 (.pair (some (ts 2017 10 2)) (some (ts 2017 10 8)))
    let x5 ← asIvl x4
    check 392 (decide ((x5.lo, x5.hi) = (2, 8)))
    check 392 (decide (x5.schedule.name = "on_duty"))
    check 392 (decide (x5.len = 7))
    let x6 ← x1.getInterval (some (.pair (some (ts 2017 10 2 15 15)) (some (ts 2017 10 8 23 59)))) none none true "11" none
    check 399 (decide ((x6.lo, x6.hi) = (2, 8)))
    check 399 (decide (x6.schedule.name = "on_duty"))
    check 399 (decide (x6.len = 7))
    let x7 ← x1.getInterval (some (.pair none (some (ts 2017 10 8 23 59)))) none none true "11" none
    check 404 (decide ((x7.lo, x7.hi) = (0, 8)))
    check 404 (decide (x7.schedule.name = "on_duty"))
    check 404 (decide (x7.len = 9))
    let x8 ← x1.call1 (.pair (some (ts 2017 10 2 15 15)) none)
    let x9 ← asIvl x8
    check 406 (decide ((x9.lo, x9.hi) = (2, 15)))
    check 406 (decide (x9.schedule.name = "on_duty"))
    check 406 (decide (x9.len = 14))
    let x10 ← x1.getInterval (some (.point (ts 2017 10 2))) (some 7) none true "11" none
    check 411 (decide ((x10.lo, x10.hi) = (2, 8)))
    check 411 (decide (x10.schedule.name = "on_duty"))
    check 411 (decide (x10.len = 7))
    let x11 ← x1.callN (some (.point (ts 2017 10 2))) (some 7) none true "11" none
    let x12 ← asIvl x11
    check 416 (decide ((x12.lo, x12.hi) = (2, 8)))
    check 416 (decide (x12.schedule.name = "on_duty"))
    check 416 (decide (x12.len = 7))
    let x13 ← x1.getInterval (some (.point (ts 2017 10 5))) none (some (⟨none, .W none, by decide⟩ : Freq)) true "11" none
    check 422 (decide ((x13.lo, x13.hi) = (2, 8)))
    check 422 (decide (x13.schedule.name = "on_duty"))
    check 422 (decide (x13.len = 7))
    let x14 ← x1.callN (some (.point (ts 2017 10 5))) none (some (⟨none, .W none, by decide⟩ : Freq)) true "11" none
    let x15 ← asIvl x14
    check 427 (decide ((x15.lo, x15.hi) = (2, 8)))
    check 427 (decide (x15.schedule.name = "on_duty"))
    check 427 (decide (x15.len = 7))
    let x16 ← x1.getInterval (some (.period (Period.ofTime (⟨none, .W none, by decide⟩ : Freq) (ts 2017 10 5)))) none none true "11" none
    check 434 (decide ((x16.lo, x16.hi) = (2, 8)))
    check 434 (decide (x16.schedule.name = "on_duty"))
    check 434 (decide (x16.len = 7))
    let x17 ← x1.call1 (.period (Period.ofTime (⟨none, .W none, by decide⟩ : Freq) (ts 2017 10 5)))
    let x18 ← asWs x17
    check 439 (decide (x18.loc = 2))
    check 439 (decide (x18.schedule.name = "on_duty"))
    let x19 ← x18.duration x1
    check 439 (decide (x19 = 1))
    let x20 ← x18.startTime x1
    check 439 (decide (x20 = (ts 2017 10 2)))
    let x21 ← x1.getInterval none none none true "11" none
    check 445 (decide ((x21.lo, x21.hi) = (0, 15)))
    check 445 (decide (x21.schedule.name = "on_duty"))
    check 445 (decide (x21.len = 16))
    let x22 ← x1.callN none none none true "11" none
    let x23 ← asIvl x22
    check 450 (decide ((x23.lo, x23.hi) = (0, 15)))
    check 450 (decide (x23.schedule.name = "on_duty"))
    check 450 (decide (x23.len = 16))
    let x24 ← x1.call1 (.point (ts 2017 10 2))
    let x25 ← asWs x24
    check 457 (decide (x25.loc = 2))
    check 457 (decide (x25.schedule.name = "on_duty"))
    let x26 ← x25.duration x1
    check 457 (decide (x26 = 1))
    let x27 ← x25.startTime x1
    check 457 (decide (x27 = (ts 2017 10 2)))
    let x28 ← x1.call1 (.point (ts 2017 10 8))
    let x29 ← asWs x28
    check 460 (decide (x29.loc = 8))
    check 460 (decide (x29.schedule.name = "on_duty"))
    let x30 ← x29.duration x1
    check 460 (decide (x30 = 1))
    let x31 ← x29.startTime x1
    check 460 (decide (x31 = (ts 2017 10 8)))
    let x32 ← Interval.new x1 (x25.loc, x29.loc) none
    check 465 (decide ((x32.lo, x32.hi) = (2, 8)))
    check 465 (decide (x32.schedule.name = "on_duty"))
    check 465 (decide (x32.len = 7))
    let x33 ← Interval.new x1 (2, 8) none
    check 470 (decide ((x33.lo, x33.hi) = (2, 8)))
    check 470 (decide (x33.schedule.name = "on_duty"))
    check 470 (decide (x33.len = 7))
    let x34 ← Interval.new x1 (2, 8) none
    let x35 ← Interval.new x1 (6, 10) none
    let x36 ← x34.overlap x1 x35 none
    check 480 (decide ((x36.lo, x36.hi) = (6, 8)))
    check 480 (decide (x36.schedule.name = "on_duty"))
    check 480 (decide (x36.len = 3))
    let x37 ← x34.overlap x1 x35
    check 485 (decide ((x37.lo, x37.hi) = (6, 8)))
    check 485 (decide (x37.schedule.name = "on_duty"))
    check 485 (decide (x37.len = 3))
    let (x38, x39) ← x1.addSchedule "my_schedule" (fun x => x.gt (1 : Rat))
    let x40 ← x39.callN (some (.pair (some (ts 2017 10 2)) (some (ts 2017 10 8)))) none none true "11" (some x38)
    let x41 ← asIvl x40
    check 500 (decide ((x41.lo, x41.hi) = (2, 8)))
    check 500 (decide (x41.schedule.name = "my_schedule"))
    check 500 (decide (x41.len = 7))
    let x42 ← Interval.new x39 (2, 8) (some x38)
    check 502 (decide ((x42.lo, x42.hi) = (2, 8)))
    check 502 (decide (x42.schedule.name = "my_schedule"))
    check 502 (decide (x42.len = 7))
    let x43 ← x34.overlap x1 x35 (some x38)
    check 504 (decide ((x43.lo, x43.hi) = (6, 8)))
    check 504 (decide (x43.schedule.name = "my_schedule"))
    check 504 (decide (x43.len = 3))
    pure ()) = true := by decide +kernel

/-- doc/source/doing_calculations.rst 518: results at lines 520, 525. -/
example : passes (do
    let (x1, x2) ← Timeboard.new (L := V) { freq := (⟨none, .D, by decide⟩ : Freq), start := (ts 2017 9 30), stop := (ts 2017 10 15), layout := .pattern (.list [(.i 0), (.i 1), (.i 0), (.i 2)]), selector := V.truthy, defaultLabel := V.none } (noHeap : Heap V)
    let x3 ← x1.callN (some (.point (ts 2017 10 1))) none (some (⟨none, .M, by decide⟩ : Freq)) true "11" none
    let x4 ← asIvl x3
    check 520 (decide ((x4.lo, x4.hi) = (1, 15)))
    check 520 (decide (x4.schedule.name = "on_duty"))
    check 520 (decide (x4.len = 15))
    raises 525 [.partialOutOfBounds] (do
      let x5 ← x1.callN (some (.point (ts 2017 10 1))) none (some (⟨none, .M, by decide⟩ : Freq)) false "11" none
      let x6 ← asIvl x5
      pure ())
    pure ()) = true := by decide +kernel

/-- doc/source/doing_calculations.rst 539: results at lines 541, 556. -/
example : passes (do
    let (x1, x2) ← Timeboard.new (L := V) { freq := (⟨some 12, .H, by decide⟩ : Freq), start := (ts 2017 10 1 21), stop := (ts 2017 10 3), layout := .pattern (.list [(.i 1)]), selector := V.truthy, defaultLabel := V.none } (noHeap : Heap V)
    let x3 ← Workshift.new x1 0 none
    let x4 ← x3.toTimestamp x1
    check 541 (decide (x4 = (ts 2017 10 1 21)))
    let x5 ← x3.startTime x1
    check 541 (decide (x5 = (ts 2017 10 1 21)))
    let x6 ← x3.duration x1
    check 541 (decide (x6 = 1))
    let x7 ← x3.endTime x1
    check 541 (decide (x7 = (ts 2017 10 2 8 59 59 + 999999999)))
    let x8 ← Workshift.new x1 1 none
    let x9 ← x8.toTimestamp x1
    check 541 (decide (x9 = (ts 2017 10 2 9)))
    let x10 ← x8.startTime x1
    check 541 (decide (x10 = (ts 2017 10 2 9)))
    let x11 ← x8.duration x1
    check 541 (decide (x11 = 1))
    let x12 ← x8.endTime x1
    check 541 (decide (x12 = (ts 2017 10 2 20 59 59 + 999999999)))
    let x13 ← Workshift.new x1 2 none
    let x14 ← x13.toTimestamp x1
    check 541 (decide (x14 = (ts 2017 10 2 21)))
    let x15 ← x13.startTime x1
    check 541 (decide (x15 = (ts 2017 10 2 21)))
    let x16 ← x13.duration x1
    check 541 (decide (x16 = 1))
    let x17 ← x13.endTime x1
    check 541 (decide (x17 = (ts 2017 10 3 8 59 59 + 999999999)))
    let x18 ← x1.callN (some (.point (ts 2017 10 2))) none (some (⟨none, .D, by decide⟩ : Freq)) true "11" none
    let x19 ← asIvl x18
    check 556 (decide ((x19.lo, x19.hi) = (1, 2)))
    check 556 (decide (x19.schedule.name = "on_duty"))
    check 556 (decide (x19.len = 2))
    pure ()) = true := by decide +kernel

/-- doc/source/doing_calculations.rst 561: results at lines 564, 578. -/
example : passes (do
    let (x1, x2) ← Timeboard.new (L := V) { freq := (⟨some 12, .H, by decide⟩ : Freq), start := (ts 2017 10 1 21), stop := (ts 2017 10 3), layout := .pattern (.list [(.i 1)]), selector := V.truthy, defaultLabel := V.none, refEnd := true } (noHeap : Heap V)
    let x3 ← Workshift.new x1 0 none
    let x4 ← x3.toTimestamp x1
    check 564 (decide (x4 = (ts 2017 10 2 8 59 59 + 999999999)))
    let x5 ← x3.startTime x1
    check 564 (decide (x5 = (ts 2017 10 1 21)))
    let x6 ← x3.duration x1
    check 564 (decide (x6 = 1))
    let x7 ← x3.endTime x1
    check 564 (decide (x7 = (ts 2017 10 2 8 59 59 + 999999999)))
    let x8 ← Workshift.new x1 1 none
    let x9 ← x8.toTimestamp x1
    check 564 (decide (x9 = (ts 2017 10 2 20 59 59 + 999999999)))
    let x10 ← x8.startTime x1
    check 564 (decide (x10 = (ts 2017 10 2 9)))
    let x11 ← x8.duration x1
    check 564 (decide (x11 = 1))
    let x12 ← x8.endTime x1
    check 564 (decide (x12 = (ts 2017 10 2 20 59 59 + 999999999)))
    let x13 ← Workshift.new x1 2 none
    let x14 ← x13.toTimestamp x1
    check 564 (decide (x14 = (ts 2017 10 3 8 59 59 + 999999999)))
    let x15 ← x13.startTime x1
    check 564 (decide (x15 = (ts 2017 10 2 21)))
    let x16 ← x13.duration x1
    check 564 (decide (x16 = 1))
    let x17 ← x13.endTime x1
    check 564 (decide (x17 = (ts 2017 10 3 8 59 59 + 999999999)))
    let x18 ← x1.callN (some (.point (ts 2017 10 2))) none (some (⟨none, .D, by decide⟩ : Freq)) true "11" none
    let x19 ← asIvl x18
    check 578 (decide ((x19.lo, x19.hi) = (0, 1)))
    check 578 (decide (x19.schedule.name = "on_duty"))
    check 578 (decide (x19.len = 2))
    pure ()) = true := by decide +kernel

/-- doc/source/doing_calculations.rst 588: results at lines 593, 602. -/
example : passes (do
    let (x1, x2) ← Timeboard.new (L := V) { freq := (⟨none, .D, by decide⟩ : Freq), start := (ts 2017 9 30), stop := (ts 2017 10 5), layout := .pattern (.list [(.i 1)]), selector := V.truthy, defaultLabel := V.none } (noHeap : Heap V)
    let x3 ← x1.getInterval (some (.point (ts 2017 10 2))) none (some (⟨none, .H, by decide⟩ : Freq)) true "11" none
    check 593 (decide ((x3.lo, x3.hi) = (2, 2)))
    check 593 (decide (x3.schedule.name = "on_duty"))
    check 593 (decide (x3.len = 1))
    let x4 ← Workshift.new x1 2 none
    let x5 ← x4.startTime x1
    check 593 (decide (x5 = (ts 2017 10 2)))
    let x6 ← x4.duration x1
    check 593 (decide (x6 = 1))
    let x7 ← x4.endTime x1
    check 593 (decide (x7 = (ts 2017 10 2 23 59 59 + 999999999)))
    check 593 (decide (x4.label = (.num (1 : Rat))))
    let x8 ← x4.isOnDuty x1 none
    check 593 (x8)
    raises 602 [.voidInterval] (do
      let x9 ← x1.getInterval (some (.point (ts 2017 10 2 1))) none (some (⟨none, .H, by decide⟩ : Freq)) true "11" none
      pure ())
    pure ()) = true := by decide +kernel

/-- doc/source/doing_calculations.rst 688: results at lines 691, 706, 708, 710, 712, 717, 719, 721, 723, 730, 732, 737, 739, 741, 743. -/
example : passes (do
    let (x1, x2) ← Timeboard.new (L := V) { freq := (⟨none, .D, by decide⟩ : Freq), start := (ts 2017 9 30), stop := (ts 2017 10 15), layout := .pattern (.list [(.i 0), (.i 1), (.i 0), (.i 2)]), selector := V.truthy, defaultLabel := V.none } (noHeap : Heap V)
    let x3 ← x1.call1 (.pair (some (ts 2017 10 2)) (some (ts 2017 10 8)))
    let x4 ← asIvl x3
    check 691 (decide ((x4.lo, x4.hi) = (2, 8)))
    check 691 (decide (x4.schedule.name = "on_duty"))
    check 691 (decide (x4.len = 7))
    let x5 ← Workshift.new x1 2 none
    let x6 ← x5.startTime x1
    check 691 (decide (x6 = (ts 2017 10 2)))
    let x7 ← x5.duration x1
    check 691 (decide (x7 = 1))
    let x8 ← x5.endTime x1
    check 691 (decide (x8 = (ts 2017 10 2 23 59 59 + 999999999)))
    check 691 (decide (x5.label = (.num (0 : Rat))))
    let x9 ← x5.isOnDuty x1 none
    check 691 (!(x9))
    let x10 ← Workshift.new x1 3 none
    let x11 ← x10.startTime x1
    check 691 (decide (x11 = (ts 2017 10 3)))
    let x12 ← x10.duration x1
    check 691 (decide (x12 = 1))
    let x13 ← x10.endTime x1
    check 691 (decide (x13 = (ts 2017 10 3 23 59 59 + 999999999)))
    check 691 (decide (x10.label = (.num (2 : Rat))))
    let x14 ← x10.isOnDuty x1 none
    check 691 (x14)
    let x15 ← Workshift.new x1 4 none
    let x16 ← x15.startTime x1
    check 691 (decide (x16 = (ts 2017 10 4)))
    let x17 ← x15.duration x1
    check 691 (decide (x17 = 1))
    let x18 ← x15.endTime x1
    check 691 (decide (x18 = (ts 2017 10 4 23 59 59 + 999999999)))
    check 691 (decide (x15.label = (.num (0 : Rat))))
    let x19 ← x15.isOnDuty x1 none
    check 691 (!(x19))
    let x20 ← Workshift.new x1 5 none
    let x21 ← x20.startTime x1
    check 691 (decide (x21 = (ts 2017 10 5)))
    let x22 ← x20.duration x1
    check 691 (decide (x22 = 1))
    let x23 ← x20.endTime x1
    check 691 (decide (x23 = (ts 2017 10 5 23 59 59 + 999999999)))
    check 691 (decide (x20.label = (.num (1 : Rat))))
    let x24 ← x20.isOnDuty x1 none
    check 691 (x24)
    let x25 ← Workshift.new x1 6 none
    let x26 ← x25.startTime x1
    check 691 (decide (x26 = (ts 2017 10 6)))
    let x27 ← x25.duration x1
    check 691 (decide (x27 = 1))
    let x28 ← x25.endTime x1
    check 691 (decide (x28 = (ts 2017 10 6 23 59 59 + 999999999)))
    check 691 (decide (x25.label = (.num (0 : Rat))))
    let x29 ← x25.isOnDuty x1 none
    check 691 (!(x29))
    let x30 ← Workshift.new x1 7 none
    let x31 ← x30.startTime x1
    check 691 (decide (x31 = (ts 2017 10 7)))
    let x32 ← x30.duration x1
    check 691 (decide (x32 = 1))
    let x33 ← x30.endTime x1
    check 691 (decide (x33 = (ts 2017 10 7 23 59 59 + 999999999)))
    check 691 (decide (x30.label = (.num (2 : Rat))))
    let x34 ← x30.isOnDuty x1 none
    check 691 (x34)
    let x35 ← Workshift.new x1 8 none
    let x36 ← x35.startTime x1
    check 691 (decide (x36 = (ts 2017 10 8)))
    let x37 ← x35.duration x1
    check 691 (decide (x37 = 1))
    let x38 ← x35.endTime x1
    check 691 (decide (x38 = (ts 2017 10 8 23 59 59 + 999999999)))
    check 691 (decide (x35.label = (.num (0 : Rat))))
    let x39 ← x35.isOnDuty x1 none
    check 691 (!(x39))
    let x40 ← x4.first x1 .on none
    check 706 (decide (x40.loc = 3))
    check 706 (decide (x40.schedule.name = "on_duty"))
    let x41 ← x40.duration x1
    check 706 (decide (x41 = 1))
    let x42 ← x40.startTime x1
    check 706 (decide (x42 = (ts 2017 10 3)))
    let x43 ← x4.nth x1 1 .on none
    check 708 (decide (x43.loc = 5))
    check 708 (decide (x43.schedule.name = "on_duty"))
    let x44 ← x43.duration x1
    check 708 (decide (x44 = 1))
    let x45 ← x43.startTime x1
    check 708 (decide (x45 = (ts 2017 10 5)))
    let x46 ← x4.last x1 .on none
    check 710 (decide (x46.loc = 7))
    check 710 (decide (x46.schedule.name = "on_duty"))
    let x47 ← x46.duration x1
    check 710 (decide (x47 = 1))
    let x48 ← x46.startTime x1
    check 710 (decide (x48 = (ts 2017 10 7)))
    let x49 ← x4.count x1 .on none
    check 712 (decide (x49 = 3))
    let x50 ← x4.first x1 .off none
    check 717 (decide (x50.loc = 2))
    check 717 (decide (x50.schedule.name = "on_duty"))
    let x51 ← x50.duration x1
    check 717 (decide (x51 = 1))
    let x52 ← x50.startTime x1
    check 717 (decide (x52 = (ts 2017 10 2)))
    let x53 ← x4.nth x1 1 .off none
    check 719 (decide (x53.loc = 4))
    check 719 (decide (x53.schedule.name = "on_duty"))
    let x54 ← x53.duration x1
    check 719 (decide (x54 = 1))
    let x55 ← x53.startTime x1
    check 719 (decide (x55 = (ts 2017 10 4)))
    let x56 ← x4.last x1 .off none
    check 721 (decide (x56.loc = 8))
    check 721 (decide (x56.schedule.name = "on_duty"))
    let x57 ← x56.duration x1
    check 721 (decide (x57 = 1))
    let x58 ← x56.startTime x1
    check 721 (decide (x58 = (ts 2017 10 8)))
    let x59 ← x4.count x1 .off none
    check 723 (decide (x59 = 4))
    let (x60, x61) ← x1.addSchedule "my_schedule" (fun x => x.gt (1 : Rat))
    let x62 ← x4.nth x1 1 .on (some x60)
    check 730 (decide (x62.loc = 7))
    check 730 (decide (x62.schedule.name = "my_schedule"))
    let x63 ← x62.duration x1
    check 730 (decide (x63 = 1))
    let x64 ← x62.startTime x1
    check 730 (decide (x64 = (ts 2017 10 7)))
    let x65 ← x4.count x1 .on (some x60)
    check 732 (decide (x65 = 2))
    let x66 ← x4.first x1 .any none
    check 737 (decide (x66.loc = 2))
    check 737 (decide (x66.schedule.name = "on_duty"))
    let x67 ← x66.duration x1
    check 737 (decide (x67 = 1))
    let x68 ← x66.startTime x1
    check 737 (decide (x68 = (ts 2017 10 2)))
    let x69 ← x4.nth x1 1 .any none
    check 739 (decide (x69.loc = 3))
    check 739 (decide (x69.schedule.name = "on_duty"))
    let x70 ← x69.duration x1
    check 739 (decide (x70 = 1))
    let x71 ← x69.startTime x1
    check 739 (decide (x71 = (ts 2017 10 3)))
    let x72 ← x4.last x1 .any none
    check 741 (decide (x72.loc = 8))
    check 741 (decide (x72.schedule.name = "on_duty"))
    let x73 ← x72.duration x1
    check 741 (decide (x73 = 1))
    let x74 ← x72.startTime x1
    check 741 (decide (x74 = (ts 2017 10 8)))
    let x75 ← x4.count x1 .any none
    check 743 (decide (x75 = 7))
    pure ()) = true := by decide +kernel

/-- doc/source/doing_calculations.rst 754: results at lines 757, 772, 780, 788, 800. -/
example : passes (do
    let (x1, x2) ← Timeboard.new (L := V) { freq := (⟨none, .D, by decide⟩ : Freq), start := (ts 2017 9 30), stop := (ts 2017 10 11), layout := .pattern (.list [(.i 0), (.i 1), (.i 0), (.i 2)]), selector := V.truthy, defaultLabel := V.none } (noHeap : Heap V)
    let (x3, x4) ← x1.addSchedule "my_schedule" (fun x => x.gt (1 : Rat))
    let x5 ← x4.getWorkshift (ts 2017 10 5) (some x3)
    let (x6, x7) ← Timeboard.new (L := V) { freq := (⟨none, .D, by decide⟩ : Freq), start := (ts 2017 9 30), stop := (ts 2017 10 15), layout := .pattern (.list [(.i 0), (.i 1), (.i 0), (.i 2)]), selector := V.truthy, defaultLabel := V.none } x2
    let x8 ← x6.call1 (.pair (some (ts 2017 10 2)) (some (ts 2017 10 8)))
    let x9 ← asIvl x8
    check 757 (decide ((x9.lo, x9.hi) = (2, 8)))
    check 757 (decide (x9.schedule.name = "on_duty"))
    check 757 (decide (x9.len = 7))
    let x10 ← Workshift.new x6 2 none
    let x11 ← x10.startTime x6
    check 757 (decide (x11 = (ts 2017 10 2)))
    let x12 ← x10.duration x6
    check 757 (decide (x12 = 1))
    let x13 ← x10.endTime x6
    check 757 (decide (x13 = (ts 2017 10 2 23 59 59 + 999999999)))
    check 757 (decide (x10.label = (.num (0 : Rat))))
    let x14 ← x10.isOnDuty x6 none
    check 757 (!(x14))
    let x15 ← Workshift.new x6 3 none
    let x16 ← x15.startTime x6
    check 757 (decide (x16 = (ts 2017 10 3)))
    let x17 ← x15.duration x6
    check 757 (decide (x17 = 1))
    let x18 ← x15.endTime x6
    check 757 (decide (x18 = (ts 2017 10 3 23 59 59 + 999999999)))
    check 757 (decide (x15.label = (.num (2 : Rat))))
    let x19 ← x15.isOnDuty x6 none
    check 757 (x19)
    let x20 ← Workshift.new x6 4 none
    let x21 ← x20.startTime x6
    check 757 (decide (x21 = (ts 2017 10 4)))
    let x22 ← x20.duration x6
    check 757 (decide (x22 = 1))
    let x23 ← x20.endTime x6
    check 757 (decide (x23 = (ts 2017 10 4 23 59 59 + 999999999)))
    check 757 (decide (x20.label = (.num (0 : Rat))))
    let x24 ← x20.isOnDuty x6 none
    check 757 (!(x24))
    let x25 ← Workshift.new x6 5 none
    let x26 ← x25.startTime x6
    check 757 (decide (x26 = (ts 2017 10 5)))
    let x27 ← x25.duration x6
    check 757 (decide (x27 = 1))
    let x28 ← x25.endTime x6
    check 757 (decide (x28 = (ts 2017 10 5 23 59 59 + 999999999)))
    check 757 (decide (x25.label = (.num (1 : Rat))))
    let x29 ← x25.isOnDuty x6 none
    check 757 (x29)
    let x30 ← Workshift.new x6 6 none
    let x31 ← x30.startTime x6
    check 757 (decide (x31 = (ts 2017 10 6)))
    let x32 ← x30.duration x6
    check 757 (decide (x32 = 1))
    let x33 ← x30.endTime x6
    check 757 (decide (x33 = (ts 2017 10 6 23 59 59 + 999999999)))
    check 757 (decide (x30.label = (.num (0 : Rat))))
    let x34 ← x30.isOnDuty x6 none
    check 757 (!(x34))
    let x35 ← Workshift.new x6 7 none
    let x36 ← x35.startTime x6
    check 757 (decide (x36 = (ts 2017 10 7)))
    let x37 ← x35.duration x6
    check 757 (decide (x37 = 1))
    let x38 ← x35.endTime x6
    check 757 (decide (x38 = (ts 2017 10 7 23 59 59 + 999999999)))
    check 757 (decide (x35.label = (.num (2 : Rat))))
    let x39 ← x35.isOnDuty x6 none
    check 757 (x39)
    let x40 ← Workshift.new x6 8 none
    let x41 ← x40.startTime x6
    check 757 (decide (x41 = (ts 2017 10 8)))
    let x42 ← x40.duration x6
    check 757 (decide (x42 = 1))
    let x43 ← x40.endTime x6
    check 757 (decide (x43 = (ts 2017 10 8 23 59 59 + 999999999)))
    check 757 (decide (x40.label = (.num (0 : Rat))))
    let x44 ← x40.isOnDuty x6 none
    check 757 (!(x44))
    let x45 ← x9.workshifts x6 .on none
    check 772 (decide ((x45.length : Int) = 3))
    let x46 ← item x45 0
    let x47 ← x46.startTime x6
    check 772 (decide (x47 = (ts 2017 10 3)))
    let x48 ← item x45 0
    check 772 (decide (x48.label = (.i 2)))
    let x49 ← item x45 1
    let x50 ← x49.startTime x6
    check 772 (decide (x50 = (ts 2017 10 5)))
    let x51 ← item x45 1
    check 772 (decide (x51.label = (.i 1)))
    let x52 ← item x45 2
    let x53 ← x52.startTime x6
    check 772 (decide (x53 = (ts 2017 10 7)))
    let x54 ← item x45 2
    check 772 (decide (x54.label = (.i 2)))
    let x55 ← x9.workshifts x6 .off none
    check 780 (decide ((x55.length : Int) = 4))
    let x56 ← item x55 0
    check 780 (decide (x56.loc = 2))
    check 780 (decide (x56.schedule.name = "on_duty"))
    let x57 ← x56.duration x6
    check 780 (decide (x57 = 1))
    let x58 ← x56.startTime x6
    check 780 (decide (x58 = (ts 2017 10 2)))
    let x59 ← item x55 1
    check 780 (decide (x59.loc = 4))
    check 780 (decide (x59.schedule.name = "on_duty"))
    let x60 ← x59.duration x6
    check 780 (decide (x60 = 1))
    let x61 ← x59.startTime x6
    check 780 (decide (x61 = (ts 2017 10 4)))
    let x62 ← item x55 2
    check 780 (decide (x62.loc = 6))
    check 780 (decide (x62.schedule.name = "on_duty"))
    let x63 ← x62.duration x6
    check 780 (decide (x63 = 1))
    let x64 ← x62.startTime x6
    check 780 (decide (x64 = (ts 2017 10 6)))
    let x65 ← item x55 3
    check 780 (decide (x65.loc = 8))
    check 780 (decide (x65.schedule.name = "on_duty"))
    let x66 ← x65.duration x6
    check 780 (decide (x66 = 1))
    let x67 ← x65.startTime x6
    check 780 (decide (x67 = (ts 2017 10 8)))
    let x68 ← x9.iter x6
    check 788 (decide ((x68.length : Int) = 7))
    let x69 ← item x68 0
    let x70 ← x69.startTime x6
    check 788 (decide (x70 = (ts 2017 10 2)))
    let x71 ← item x68 0
    check 788 (decide (x71.label = (.i 0)))
    let x72 ← item x68 1
    let x73 ← x72.startTime x6
    check 788 (decide (x73 = (ts 2017 10 3)))
    let x74 ← item x68 1
    check 788 (decide (x74.label = (.i 2)))
    let x75 ← item x68 2
    let x76 ← x75.startTime x6
    check 788 (decide (x76 = (ts 2017 10 4)))
    let x77 ← item x68 2
    check 788 (decide (x77.label = (.i 0)))
    let x78 ← item x68 3
    let x79 ← x78.startTime x6
    check 788 (decide (x79 = (ts 2017 10 5)))
    let x80 ← item x68 3
    check 788 (decide (x80.label = (.i 1)))
    let x81 ← item x68 4
    let x82 ← x81.startTime x6
    check 788 (decide (x82 = (ts 2017 10 6)))
    let x83 ← item x68 4
    check 788 (decide (x83.label = (.i 0)))
    let x84 ← item x68 5
    let x85 ← x84.startTime x6
    check 788 (decide (x85 = (ts 2017 10 7)))
    let x86 ← item x68 5
    check 788 (decide (x86.label = (.i 2)))
    let x87 ← item x68 6
    let x88 ← x87.startTime x6
    check 788 (decide (x88 = (ts 2017 10 8)))
    let x89 ← item x68 6
    check 788 (decide (x89.label = (.i 0)))
    let x90 ← x9.workshifts x6 .any none
    check 800 (decide ((x90.length : Int) = 7))
    let x91 ← item x90 0
    check 800 (decide (x91.loc = 2))
    check 800 (decide (x91.schedule.name = "on_duty"))
    let x92 ← x91.duration x6
    check 800 (decide (x92 = 1))
    let x93 ← x91.startTime x6
    check 800 (decide (x93 = (ts 2017 10 2)))
    let x94 ← item x90 1
    check 800 (decide (x94.loc = 3))
    check 800 (decide (x94.schedule.name = "on_duty"))
    let x95 ← x94.duration x6
    check 800 (decide (x95 = 1))
    let x96 ← x94.startTime x6
    check 800 (decide (x96 = (ts 2017 10 3)))
    let x97 ← item x90 2
    check 800 (decide (x97.loc = 4))
    check 800 (decide (x97.schedule.name = "on_duty"))
    let x98 ← x97.duration x6
    check 800 (decide (x98 = 1))
    let x99 ← x97.startTime x6
    check 800 (decide (x99 = (ts 2017 10 4)))
    let x100 ← item x90 3
    check 800 (decide (x100.loc = 5))
    check 800 (decide (x100.schedule.name = "on_duty"))
    let x101 ← x100.duration x6
    check 800 (decide (x101 = 1))
    let x102 ← x100.startTime x6
    check 800 (decide (x102 = (ts 2017 10 5)))
    let x103 ← item x90 4
    check 800 (decide (x103.loc = 6))
    check 800 (decide (x103.schedule.name = "on_duty"))
    let x104 ← x103.duration x6
    check 800 (decide (x104 = 1))
    let x105 ← x103.startTime x6
    check 800 (decide (x105 = (ts 2017 10 6)))
    let x106 ← item x90 5
    check 800 (decide (x106.loc = 7))
    check 800 (decide (x106.schedule.name = "on_duty"))
    let x107 ← x106.duration x6
    check 800 (decide (x107 = 1))
    let x108 ← x106.startTime x6
    check 800 (decide (x108 = (ts 2017 10 7)))
    let x109 ← item x90 6
    check 800 (decide (x109.loc = 8))
    check 800 (decide (x109.schedule.name = "on_duty"))
    let x110 ← x109.duration x6
    check 800 (decide (x110 = 1))
    let x111 ← x109.startTime x6
    check 800 (decide (x111 = (ts 2017 10 8)))
    pure ()) = true := by decide +kernel

/-- doc/source/doing_calculations.rst 821: results at lines 825, 836, 838, 840. -/
example : passes (do
    let (x1, x2) ← Timeboard.new (L := V) { freq := (⟨none, .D, by decide⟩ : Freq), start := (ts 2017 9 30), stop := (ts 2017 10 11), layout := .pattern (.list [(.i 4), (.i 8), (.i 4), (.i 8)]), selector := (fun x => x.gt (4 : Rat)), defaultLabel := V.none } (noHeap : Heap V)
    let x3 ← Interval.new x1 (1, 3) none
    check 825 (decide ((x3.lo, x3.hi) = (1, 3)))
    check 825 (decide (x3.schedule.name = "on_duty"))
    check 825 (decide (x3.len = 3))
    let x4 ← Workshift.new x1 1 none
    let x5 ← x4.startTime x1
    check 825 (decide (x5 = (ts 2017 10 1)))
    let x6 ← x4.duration x1
    check 825 (decide (x6 = 1))
    let x7 ← x4.endTime x1
    check 825 (decide (x7 = (ts 2017 10 1 23 59 59 + 999999999)))
    check 825 (decide (x4.label = (.num (8 : Rat))))
    let x8 ← x4.isOnDuty x1 none
    check 825 (x8)
    let x9 ← Workshift.new x1 2 none
    let x10 ← x9.startTime x1
    check 825 (decide (x10 = (ts 2017 10 2)))
    let x11 ← x9.duration x1
    check 825 (decide (x11 = 1))
    let x12 ← x9.endTime x1
    check 825 (decide (x12 = (ts 2017 10 2 23 59 59 + 999999999)))
    check 825 (decide (x9.label = (.num (4 : Rat))))
    let x13 ← x9.isOnDuty x1 none
    check 825 (!(x13))
    let x14 ← Workshift.new x1 3 none
    let x15 ← x14.startTime x1
    check 825 (decide (x15 = (ts 2017 10 3)))
    let x16 ← x14.duration x1
    check 825 (decide (x16 = 1))
    let x17 ← x14.endTime x1
    check 825 (decide (x17 = (ts 2017 10 3 23 59 59 + 999999999)))
    check 825 (decide (x14.label = (.num (8 : Rat))))
    let x18 ← x14.isOnDuty x1 none
    check 825 (x18)
    let x19 ← x3.worktime x1 V.num? .on none
    check 836 (decide (x19 = (2 : Rat)))
    let x20 ← x3.worktime x1 V.num? .off none
    check 838 (decide (x20 = (1 : Rat)))
    let x21 ← x3.worktime x1 V.num? .any none
    check 840 (decide (x21 = (3 : Rat)))
    pure ()) = true := by decide +kernel

/-- doc/source/doing_calculations.rst 845: results at lines 853, 855, 857. -/
example : passes (do
    let (x1, x2) ← Timeboard.new (L := V) { freq := (⟨none, .D, by decide⟩ : Freq), start := (ts 2017 9 30), stop := (ts 2017 10 11), layout := .pattern (.list [(.i 4), (.i 8), (.i 4), (.i 8)]), selector := (fun x => x.gt (4 : Rat)), defaultLabel := V.none, worktimeSource := "labels" } (noHeap : Heap V)
    let x3 ← Interval.new x1 (1, 3) none
    let x4 ← x3.worktime x1 V.num? .on none
    check 853 (decide (x4 = (16 : Rat)))
    let x5 ← x3.worktime x1 V.num? .off none
    check 855 (decide (x5 = (4 : Rat)))
    let x6 ← x3.worktime x1 V.num? .any none
    check 857 (decide (x6 = (20 : Rat)))
    pure ()) = true := by decide +kernel

/-- doc/source/doing_calculations.rst 873: results at lines 884, 891, 898, 905, 911, 917, 927, 932. -/
example : passes (do
    let (x1, x2) ← Timeboard.new (L := V) { freq := (⟨none, .D, by decide⟩ : Freq), start := (ts 2017 10 2), stop := (ts 2017 10 15), layout := .pattern (.list [(.i 1), (.i 1), (.i 1), (.i 1), (.i 1), (.i 0), (.i 0)]), selector := V.truthy, defaultLabel := V.none } (noHeap : Heap V)
    let x3 ← x1.callN (some (.point (ts 2017 10 2))) none (some (⟨none, .W none, by decide⟩ : Freq)) true "11" none
    let x4 ← asIvl x3
    let x5 ← x1.call1 (.pair (some (ts 2017 10 5)) (some (ts 2017 10 7)))
    let x6 ← asIvl x5
    let x7 ← x6.whatPortionOf x1 x4 .on none
    check 884 (decide (x7 = ((2 : Rat) / 5)))
    let x8 ← x6.whatPortionOf x1 x4 .off none
    check 891 (decide (x8 = ((1 : Rat) / 2)))
    let x9 ← x6.whatPortionOf x1 x4 .any none
    check 898 (decide (x9 = ((3 : Rat) / 7)))
    let x10 ← x6.whatPortionOf x1 x4
    check 905 (decide (x10 = ((2 : Rat) / 5)))
    let x11 ← x1.callN (some (.point (ts 2017 10 9))) none (some (⟨none, .W none, by decide⟩ : Freq)) true "11" none
    let x12 ← asIvl x11
    let x13 ← x6.whatPortionOf x1 x12 .any none
    check 911 (decide (x13 = (0 : Rat)))
    let x14 ← x1.call1 (.pair (some (ts 2017 10 2)) (some (ts 2017 10 11)))
    let x15 ← asIvl x14
    let x16 ← x15.whatPortionOf x1 x4 .on none
    check 917 (decide (x16 = (1 : Rat)))
    let x17 ← x1.call1 (.pair (some (ts 2017 10 7)) (some (ts 2017 10 8)))
    let x18 ← asIvl x17
    let x19 ← x18.whatPortionOf x1 x4 .on none
    check 927 (decide (x19 = (0 : Rat)))
    let x20 ← x18.whatPortionOf x1 x4 .off none
    check 932 (decide (x20 = (1 : Rat)))
    pure ()) = true := by decide +kernel

/- doc/source/doing_calculations.rst 953: results at lines 960, 967, 974, 986, 990, 999, 1001, 1008, 1010. -/
#guard passes (do
    let (x1, x2) ← Timeboard.new (L := V) { freq := (⟨none, .H, by decide⟩ : Freq), start := (ts 2017 10 1), stop := (ts 2017 10 8 23 59), layout := .pattern (.list [(.i 0), (.i 1), (.i 0), (.i 2)]), selector := V.truthy, defaultLabel := V.none } (noHeap : Heap V)
    let x3 ← x1.call1 (.pair (some (ts 2017 10 1 13)) (some (ts 2017 10 2 23 59)))
    let x4 ← asIvl x3
    let x5 ← x4.countPeriods x1 (⟨none, .D, by decide⟩ : Freq) .any none
    check 960 (decide (x5 = ((35 : Rat) / 24)))
    let x6 ← x4.countPeriods x1 (⟨none, .D, by decide⟩ : Freq) .on none
    check 967 (decide (x6 = ((3 : Rat) / 2)))
    let x7 ← x4.countPeriods x1 (⟨none, .D, by decide⟩ : Freq) .off none
    check 974 (decide (x7 = ((17 : Rat) / 12)))
    let (x8, x9) ← x1.addSchedule "my_schedule" (fun x => x.gt (1 : Rat))
    let x10 ← x4.countPeriods x1 (⟨none, .D, by decide⟩ : Freq) .on (some x8)
    check 986 (decide (x10 = ((3 : Rat) / 2)))
    let x11 ← x4.countPeriods x1 (⟨none, .D, by decide⟩ : Freq) .off (some x8)
    check 990 (decide (x11 = ((13 : Rat) / 9)))
    let x12 ← x9.call1 (.pair (some (ts 2017 10 1)) (some (ts 2017 10 2 0 59)))
    let x13 ← asIvl x12
    check 999 (decide ((x13.lo, x13.hi) = (0, 24)))
    check 999 (decide (x13.schedule.name = "on_duty"))
    check 999 (decide (x13.len = 25))
    let x14 ← x13.countPeriods x9 (⟨none, .D, by decide⟩ : Freq) .on none
    check 1001 (decide (x14 = (1 : Rat)))
    let x15 ← x9.call1 (.pair (some (ts 2017 10 1 1)) (some (ts 2017 10 1 23 59)))
    let x16 ← asIvl x15
    check 1008 (decide ((x16.lo, x16.hi) = (1, 23)))
    check 1008 (decide (x16.schedule.name = "on_duty"))
    check 1008 (decide (x16.len = 23))
    let x17 ← x16.countPeriods x9 (⟨none, .D, by decide⟩ : Freq) .on none
    check 1010 (decide (x17 = (1 : Rat)))
    pure ())

/-- doc/source/doing_calculations.rst 1022: results at lines 1031, 1033. -/
example : passes (do
    let (x1, x2) ← Timeboard.new (L := V) { freq := (⟨none, .H, by decide⟩ : Freq), start := (ts 2017 10 1), stop := (ts 2017 10 8 23 59), layout := .pattern (.list [(.i 0), (.i 1), (.i 0), (.i 2)]), selector := V.truthy, defaultLabel := V.none } (noHeap : Heap V)
    let x3 ← x1.call1 (.pair (some (ts 2017 10 2)) (some (ts 2017 10 2 23 59)))
    let x4 ← asIvl x3
    let x5 ← x1.call1 (.pair (some (ts 2017 10 1 13)) (some (ts 2017 10 2 23 59)))
    let x6 ← asIvl x5
    let x7 ← x4.countPeriods x1 (⟨none, .W none, by decide⟩ : Freq) .on none
    check 1031 (decide (x7 = ((1 : Rat) / 7)))
    raises 1033 [.partialOutOfBounds] (do
      let x8 ← x6.countPeriods x1 (⟨none, .W none, by decide⟩ : Freq) .on none
      pure ())
    pure ()) = true := by decide +kernel

end TB.Conf
