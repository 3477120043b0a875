import Verif.Conformance.Support
/-!
# `timeboard/tests/test_timeboard.py`

Generated by `tools/conformance.py`.  One example per unit test: the statements of the test, performed by the
model, succeed.  These are checks of the model on single inputs, not proofs of properties.
-/
set_option linter.unusedVariables false
namespace TB.Conf

/-- timeboard/tests/test_timeboard.py 14: `TestTBConstructor.test_tb_constructor_trivial`. -/
example : passes (do
    let (x1, x2) ← Timeboard.new (L := V) { freq := (⟨none, .D, by decide⟩ : Freq), start := (ts 2017 1 1), stop := (ts 2017 1 12), layout := .pattern (.list [(.i 1)]), selector := V.truthy, defaultLabel := V.none } (noHeap : Heap V)
    check 18 (decide (x1.timeline.labels = [(.i 1), (.i 1), (.i 1), (.i 1), (.i 1), (.i 1), (.i 1), (.i 1), (.i 1), (.i 1), (.i 1), (.i 1)]))
    check 19 (decide (x1.startTime = (ts 2017 1 1)))
    check 20 (decide (x1.endTime > (ts 2017 1 12 23 59 59)))
    check 21 (decide (x1.endTime < (ts 2017 1 13)))
    pure ()) = true := by decide +kernel

/-- timeboard/tests/test_timeboard.py 24: `TestTBConstructor.test_tb_constructor_empty_layout`. -/
example : passes (do
    let (x1, x2) ← Timeboard.new (L := V) { freq := (⟨none, .D, by decide⟩ : Freq), start := (ts 2017 1 1), stop := (ts 2017 1 12), layout := .pattern (.list []), selector := V.truthy, defaultLabel := V.none } (noHeap : Heap V)
    check 29 (x1.timeline.labels.all (fun l => decide (l = V.none)))
    check 30 (decide (x1.startTime = (ts 2017 1 1)))
    check 31 (decide (x1.endTime > (ts 2017 1 12 23 59 59)))
    check 32 (decide (x1.endTime < (ts 2017 1 13)))
    pure ()) = true := by decide +kernel

/-- timeboard/tests/test_timeboard.py 35: `TestTBConstructor.test_tb_constructor_empty_layout_with_default_label`. -/
example : passes (do
    let (x1, x2) ← Timeboard.new (L := V) { freq := (⟨none, .D, by decide⟩ : Freq), start := (ts 2017 1 1), stop := (ts 2017 1 12), layout := .pattern (.list []), selector := V.truthy, defaultLabel := (.i 100) } (noHeap : Heap V)
    check 40 (decide (x1.timeline.labels = [(.i 100), (.i 100), (.i 100), (.i 100), (.i 100), (.i 100), (.i 100), (.i 100), (.i 100), (.i 100), (.i 100), (.i 100)]))
    check 41 (decide (x1.startTime = (ts 2017 1 1)))
    check 42 (decide (x1.endTime > (ts 2017 1 12 23 59 59)))
    check 43 (decide (x1.endTime < (ts 2017 1 13)))
    pure ()) = true := by decide +kernel

/-- timeboard/tests/test_timeboard.py 46: `TestTBConstructor.test_tb_constructor_trivial_with_amendments`. -/
example : passes (do
    let (x1, x2) ← Timeboard.new (L := V) { freq := (⟨none, .D, by decide⟩ : Freq), start := (ts 2017 1 1), stop := (ts 2017 1 12), layout := .pattern (.list [(.i 1)]), selector := V.truthy, defaultLabel := V.none, amendments := [((ts 2017 1 11), (.i 2)), ((ts 2017 1 12), (.i 3))] } (noHeap : Heap V)
    check 52 (decide (x1.timeline.labels = [(.i 1), (.i 1), (.i 1), (.i 1), (.i 1), (.i 1), (.i 1), (.i 1), (.i 1), (.i 1), (.i 2), (.i 3)]))
    check 53 (decide (x1.startTime = (ts 2017 1 1)))
    check 54 (decide (x1.endTime > (ts 2017 1 12 23 59 59)))
    check 55 (decide (x1.endTime < (ts 2017 1 13)))
    pure ()) = true := by decide +kernel

/-- timeboard/tests/test_timeboard.py 58: `TestTBConstructor.test_tb_constructor_amendments_outside`. -/
example : passes (do
    let (x1, x2) ← Timeboard.new (L := V) { freq := (⟨none, .D, by decide⟩ : Freq), start := (ts 2017 1 1), stop := (ts 2017 1 12), layout := .pattern (.list [(.i 1)]), selector := V.truthy, defaultLabel := V.none, amendments := [((ts 2016 12 31), (.i 2)), ((ts 2017 1 12), (.i 3))] } (noHeap : Heap V)
    check 64 (decide (x1.timeline.labels = [(.i 1), (.i 1), (.i 1), (.i 1), (.i 1), (.i 1), (.i 1), (.i 1), (.i 1), (.i 1), (.i 1), (.i 3)]))
    check 65 (decide (x1.startTime = (ts 2017 1 1)))
    check 66 (decide (x1.endTime > (ts 2017 1 12 23 59 59)))
    check 67 (decide (x1.endTime < (ts 2017 1 13)))
    pure ()) = true := by decide +kernel

/-- timeboard/tests/test_timeboard.py 70: `TestTBConstructor.test_tb_constructor_bad_layout`. -/
example : passes (do
    raises 71 [.typeError] (do
      let (x1, x2) ← Timeboard.new (L := V) { freq := (⟨none, .D, by decide⟩ : Freq), start := (ts 2017 1 1), stop := (ts 2017 1 12), layout := .label (.i 1), selector := V.truthy, defaultLabel := V.none } (noHeap : Heap V)
      pure ())
    pure ()) = true := by decide +kernel

/-- timeboard/tests/test_timeboard.py 76: `TestTBConstructor.test_tb_constructor_duplicate_amendments`. -/
example : passes (do
    raises 77 [.keyError] (do
      let (x1, x2) ← Timeboard.new (L := V) { freq := (⟨none, .D, by decide⟩ : Freq), start := (ts 2017 1 1), stop := (ts 2017 1 12), layout := .pattern (.list [(.i 1)]), selector := V.truthy, defaultLabel := V.none, amendments := [((ts 2017 1 2 12), (.i 2)), ((ts 2017 1 2 15 15), (.i 3))] } (noHeap : Heap V)
      pure ())
    pure ()) = true := by decide +kernel

/-- timeboard/tests/test_timeboard.py 91: `TestTBConstructor.test_tb_constructor_trivial_selector`. -/
example : passes (do
    let (x1, x2) ← Timeboard.new (L := V) { freq := (⟨none, .D, by decide⟩ : Freq), start := (ts 2017 1 1), stop := (ts 2017 1 12), layout := .pattern (.list [(.i 0), (.i 1), (.i 0), (.i 2)]), selector := V.truthy, defaultLabel := V.none } (noHeap : Heap V)
    let x3 ← x1.timeline.label 1
    check 97 (x1.defaultSchedule.selector x3)
    check 98 (decide ((x1.timeline.labels.map (fun v => x1.defaultSchedule.selector v)) = [false, true, false, true, false, true, false, true, false, true, false, true]))
    check 99 (decide (x1.defaultSchedule.onIdx = [1, 3, 5, 7, 9, 11]))
    check 100 (decide (x1.defaultSchedule.offIdx = [0, 2, 4, 6, 8, 10]))
    pure ()) = true := by decide +kernel

/-- timeboard/tests/test_timeboard.py 102: `TestTBConstructor.test_tb_constructor_trivial_custom_selector`. -/
example : passes (do
    let (x1, x2) ← Timeboard.new (L := V) { freq := (⟨none, .D, by decide⟩ : Freq), start := (ts 2017 1 1), stop := (ts 2017 1 12), layout := .pattern (.list [(.i 0), (.i 1), (.i 0), (.i 2)]), selector := (fun x => x.gt (1 : Rat)), defaultLabel := V.none } (noHeap : Heap V)
    let x3 ← x1.timeline.label 1
    check 113 (!(x1.defaultSchedule.selector x3))
    check 114 (decide ((x1.timeline.labels.map (fun v => x1.defaultSchedule.selector v)) = [false, false, false, true, false, false, false, true, false, false, false, true]))
    check 116 (decide (x1.defaultSchedule.onIdx = [3, 7, 11]))
    check 117 (decide (x1.defaultSchedule.offIdx = [0, 1, 2, 4, 5, 6, 8, 9, 10]))
    pure ()) = true := by decide +kernel

/-- timeboard/tests/test_timeboard.py 122: `TestTBConstructorWithOrgs.test_tb_constructor_week5x8`. -/
example : passes (do
    let (x1, x2) ← Timeboard.new (L := V) { freq := (⟨none, .D, by decide⟩ : Freq), start := (ts 2016 12 28), stop := (ts 2017 4 2), layout := .organizer (.marker { each := (⟨none, .W none, by decide⟩ : Freq), ats := [] }) [.pattern (.list [(.i 1), (.i 1), (.i 1), (.i 1), (.i 1), (.i 0), (.i 0)])], selector := V.truthy, defaultLabel := V.none, amendments := [((ts 2017 1 1), (.i 0)), ((ts 2017 1 2), (.i 0)), ((ts 2017 1 3), (.i 0)), ((ts 2017 1 4), (.i 0)), ((ts 2017 1 5), (.i 0)), ((ts 2017 1 6), (.i 0)), ((ts 2017 1 7), (.i 0)), ((ts 2017 1 8), (.i 0)), ((ts 2017 1 9), (.i 0)), ((ts 2017 1 10), (.i 0))] } (noHeap : Heap V)
    check 133 (decide (x1.startTime = (ts 2016 12 28)))
    check 134 (decide (x1.endTime > (ts 2017 4 2 23 59 59)))
    check 135 (decide (x1.endTime < (ts 2017 4 3)))
    let x3 ← x1.call1 (.point (ts 2016 12 28))
    let x4 ← asWs x3
    let x5 ← x4.isOnDuty x1 none
    check 137 (x5)
    let x6 ← x1.call1 (.point (ts 2016 12 30))
    let x7 ← asWs x6
    let x8 ← x7.isOnDuty x1 none
    check 138 (x8)
    let x9 ← x1.call1 (.point (ts 2016 12 31))
    let x10 ← asWs x9
    let x11 ← x10.isOffDuty x1 none
    check 139 (x11)
    let x12 ← x1.call1 (.point (ts 2017 1 1))
    let x13 ← asWs x12
    let x14 ← x13.isOffDuty x1 none
    check 140 (x14)
    let x15 ← x1.call1 (.point (ts 2017 1 10))
    let x16 ← asWs x15
    let x17 ← x16.isOffDuty x1 none
    check 141 (x17)
    let x18 ← x1.call1 (.point (ts 2017 1 11))
    let x19 ← asWs x18
    let x20 ← x19.isOnDuty x1 none
    check 142 (x20)
    let x21 ← x1.call1 (.point (ts 2017 3 27))
    let x22 ← asWs x21
    let x23 ← x22.isOnDuty x1 none
    check 143 (x23)
    let x24 ← x1.call1 (.point (ts 2017 3 31))
    let x25 ← asWs x24
    let x26 ← x25.isOnDuty x1 none
    check 144 (x26)
    let x27 ← x1.call1 (.point (ts 2017 4 1))
    let x28 ← asWs x27
    let x29 ← x28.isOffDuty x1 none
    check 145 (x29)
    let x30 ← x1.call1 (.point (ts 2017 4 2))
    let x31 ← asWs x30
    let x32 ← x31.isOffDuty x1 none
    check 146 (x32)
    pure ()) = true := by decide +kernel

/-- timeboard/tests/test_timeboard.py 151: `TestTimeboardSchedules.test_tb_add_schedule`. -/
example : passes (do
    let (x1, x2) ← Timeboard.new (L := V) { freq := (⟨none, .D, by decide⟩ : Freq), start := (ts 2016 12 31), stop := (ts 2017 1 12), layout := .pattern (.list [(.str "O"), (.str "A"), (.str "O"), (.str "O"), (.str "B"), (.str "O")]), selector := V.truthy, defaultLabel := V.none } (noHeap : Heap V)
    check 156 (decide ((x1.schedules.length : Int) = 1))
    check 157 (x1.schedules.any (fun p => p.1 == "on_duty"))
    let (x3, x4) ← x1.addSchedule "sdl1" (fun x => decide (x = (.str "B")))
    let (x5, x6) ← x4.addSchedule "sdl2" (fun x => decide (x = (.str "C")))
    check 160 (decide ((x6.schedules.length : Int) = 3))
    check 162 (x6.schedules.any (fun p => p.1 == "sdl1"))
    let x7 ← key x6.schedules "sdl1"
    check 164 (decide (x7.name = "sdl1"))
    let x8 ← x7.isOnDuty x6.timeline 1
    check 165 (!(x8))
    let x9 ← x7.isOnDuty x6.timeline 4
    check 166 (x9)
    check 168 (x6.schedules.any (fun p => p.1 == "sdl2"))
    let x10 ← key x6.schedules "sdl2"
    check 170 (decide (x10.name = "sdl2"))
    let x11 ← x10.isOnDuty x6.timeline 1
    check 171 (!(x11))
    let x12 ← x10.isOnDuty x6.timeline 4
    check 172 (!(x12))
    check 174 (decide (x6.defaultSchedule.name = "on_duty"))
    let x13 ← x6.defaultSchedule.isOnDuty x6.timeline 1
    check 175 (x13)
    let x14 ← x6.defaultSchedule.isOnDuty x6.timeline 4
    check 176 (x14)
    pure ()) = true := by decide +kernel

/-- timeboard/tests/test_timeboard.py 178: `TestTimeboardSchedules.test_tb_drop_schedule`. -/
example : passes (do
    let (x1, x2) ← Timeboard.new (L := V) { freq := (⟨none, .D, by decide⟩ : Freq), start := (ts 2016 12 31), stop := (ts 2017 1 12), layout := .pattern (.list [(.i 0), (.i 1), (.i 0), (.i 0), (.i 2), (.i 0)]), selector := V.truthy, defaultLabel := V.none } (noHeap : Heap V)
    let (x3, x4) ← x1.addSchedule "sdl" (fun x => x.gt (1 : Rat))
    check 183 (decide ((x4.schedules.length : Int) = 2))
    let x5 ← key x4.schedules "sdl"
    let x6 ← x4.dropSchedule x5
    check 186 (decide ((x6.schedules.length : Int) = 1))
    raises 187 [.keyError] (do
      let x7 ← key x6.schedules "sdl"
      pure ())
    let x8 ← x5.isOnDuty x4.timeline 1
    check 190 (!(x8))
    pure ()) = true := by decide +kernel

/-- timeboard/tests/test_timeboard.py 192: `TestTimeboardSchedules.test_tb_schedule_names`. -/
example : passes (do
    let (x1, x2) ← Timeboard.new (L := V) { freq := (⟨none, .D, by decide⟩ : Freq), start := (ts 2016 12 31), stop := (ts 2017 1 12), layout := .pattern (.list [(.i 0), (.i 1), (.i 0), (.i 0), (.i 2), (.i 0)]), selector := V.truthy, defaultLabel := V.none } (noHeap : Heap V)
    let (x3, x4) ← x1.addSchedule "1" (fun x => x.gt (1 : Rat))
    check 197 (decide ((x4.schedules.length : Int) = 2))
    let x5 ← key x4.schedules "1"
    check 198 (decide (x5.name = "1"))
    raises 199 [.keyError] (do
      let (x6, x7) ← x4.addSchedule "1" (fun x => x.gt (2 : Rat))
      pure ())
    pure ()) = true := by decide +kernel

/-- timeboard/tests/test_timeboard.py 214: `TestTimeboardWorktime.test_tb_default_worktime_source`. -/
example : passes (do
    let (x1, x2) ← Timeboard.new (L := V) { freq := (⟨none, .D, by decide⟩ : Freq), start := (ts 2016 12 31), stop := (ts 2017 1 12), layout := .pattern (.list [(.i 0), (.i 1), (.i 0), (.i 0), (.i 2), (.i 0)]), selector := V.truthy, defaultLabel := V.none } (noHeap : Heap V)
    check 218 (decide (x1.worktimeSource = "duration"))
    pure ()) = true := by decide +kernel

/-- timeboard/tests/test_timeboard.py 220: `TestTimeboardWorktime.test_tb_set_worktime_source`. -/
example : passes (do
    let (x1, x2) ← Timeboard.new (L := V) { freq := (⟨none, .D, by decide⟩ : Freq), start := (ts 2016 12 31), stop := (ts 2017 1 12), layout := .pattern (.list [(.i 0), (.i 1), (.i 0), (.i 0), (.i 2), (.i 0)]), selector := V.truthy, defaultLabel := V.none, worktimeSource := "labels" } (noHeap : Heap V)
    check 225 (decide (x1.worktimeSource = "labels"))
    pure ()) = true := by decide +kernel

/-- timeboard/tests/test_timeboard.py 227: `TestTimeboardWorktime.test_tb_bad_worktime_source`. -/
example : passes (do
    raises 228 [.valueError, .partialOutOfBounds, .voidInterval, .unacceptablePeriod] (do
      let (x1, x2) ← Timeboard.new (L := V) { freq := (⟨none, .D, by decide⟩ : Freq), start := (ts 2016 12 31), stop := (ts 2017 1 12), layout := .pattern (.list [(.i 0), (.i 1), (.i 0), (.i 0), (.i 2), (.i 0)]), selector := V.truthy, defaultLabel := V.none, worktimeSource := "bad_source" } (noHeap : Heap V)
      pure ())
    pure ()) = true := by decide +kernel

/-- timeboard/tests/test_timeboard.py 254: `TestTimeboardToDataFrame.test_timeboard_to_dataframe`. -/
example : passes (do
    let (x1, x2) ← Timeboard.new (L := V) { freq := (⟨none, .D, by decide⟩ : Freq), start := (ts 2017 1 1), stop := (ts 2017 1 12), layout := .pattern (.list [(.i 0), (.i 1), (.i 0), (.i 2)]), selector := V.truthy, defaultLabel := V.none } (noHeap : Heap V)
    let (x3, x4) ← x1.addSchedule "my_schedule" (fun _ => true)
    let x5 ← x4.toDataframe none none
    check 260 (decide ((x5.length : Int) = 12))
    check 265 (decide ((((x5.map (fun r => r.columns.map Prod.fst)).headD []).length : Int) ≥ 5))
    check 266 (((x5.map (fun r => r.columns.map Prod.fst)).headD []).contains "my_schedule")
    pure ()) = true := by decide +kernel

/-- timeboard/tests/test_timeboard.py 268: `TestTimeboardToDataFrame.test_timeboard_to_dataframe_selected_ws`. -/
example : passes (do
    let (x1, x2) ← Timeboard.new (L := V) { freq := (⟨none, .D, by decide⟩ : Freq), start := (ts 2017 1 1), stop := (ts 2017 1 12), layout := .pattern (.list [(.i 0), (.i 1), (.i 0), (.i 2)]), selector := V.truthy, defaultLabel := V.none } (noHeap : Heap V)
    let x3 ← x1.toDataframe (some 1) (some 5)
    check 273 (decide ((x3.length : Int) = 5))
    pure ()) = true := by decide +kernel

/-- timeboard/tests/test_timeboard.py 275: `TestTimeboardToDataFrame.test_timeboard_to_dataframe_reversed_ws`. -/
example : passes (do
    let (x1, x2) ← Timeboard.new (L := V) { freq := (⟨none, .D, by decide⟩ : Freq), start := (ts 2017 1 1), stop := (ts 2017 1 12), layout := .pattern (.list [(.i 0), (.i 1), (.i 0), (.i 2)]), selector := V.truthy, defaultLabel := V.none } (noHeap : Heap V)
    let x3 ← x1.toDataframe (some 5) (some 1)
    check 281 (x3.isEmpty)
    pure ()) = true := by decide +kernel

/-- timeboard/tests/test_timeboard.py 283: `TestTimeboardToDataFrame.test_timeboard_to_dataframe_bad_locations`. -/
example : passes (do
    let (x1, x2) ← Timeboard.new (L := V) { freq := (⟨none, .D, by decide⟩ : Freq), start := (ts 2017 1 1), stop := (ts 2017 1 12), layout := .pattern (.list [(.i 0), (.i 1), (.i 0), (.i 2)]), selector := V.truthy, defaultLabel := V.none } (noHeap : Heap V)
    raises 287 [.assertionError] (do
      let x3 ← x1.toDataframe (some 1) (some 12)
      pure ())
    raises 289 [.assertionError] (do
      let x4 ← x1.toDataframe (some 12) (some 1)
      pure ())
    raises 291 [.assertionError] (do
      let x5 ← x1.toDataframe (some (-1)) (some 5)
      pure ())
    raises 293 [.assertionError] (do
      let x6 ← x1.toDataframe (some 5) (some (-1))
      pure ())
    pure ()) = true := by decide +kernel

end TB.Conf
