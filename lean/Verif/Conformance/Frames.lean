import Verif.Conformance.Support
/-!
# `timeboard/tests/test_frames.py`

Generated by `tools/conformance.py`.  One example per unit test: the statements of the test, performed by the
model, succeed.  These are checks of the model on single inputs, not proofs of properties.
-/
set_option linter.unusedVariables false
namespace TB.Conf

/-- timeboard/tests/test_frames.py 13: `TestFrameConstructor.test_frame_constructor_days`. -/
example : passes (do
    let x1 ← Frame.new (⟨none, .D, by decide⟩ : Freq) (ts 2017 1 1) (ts 2017 3 1)
    check 15 (decide ((x1.n : Int) = 60))
    let x2 ← framePeriod x1 0
    check 16 (samePeriod x2 (Period.ofTime (⟨none, .D, by decide⟩ : Freq) (ts 2017 1 1)))
    let x3 ← framePeriod x1 59
    check 17 (samePeriod x3 (Period.ofTime (⟨none, .D, by decide⟩ : Freq) (ts 2017 3 1)))
    check 18 (decide (x1.startTime = (ts 2017 1 1)))
    check 19 (decide (x1.endTime ≥ (ts 2017 3 1 23 59 59 + 999999999)))
    check 20 (decide (x1.endTime ≤ (ts 2017 3 2)))
    check 21 (x1.ords == sortList x1.ords)
    pure ()) = true := by decide +kernel

/-- timeboard/tests/test_frames.py 23: `TestFrameConstructor.test_frame_constructor_end_same_as_start`. -/
example : passes (do
    let x1 ← Frame.new (⟨none, .D, by decide⟩ : Freq) (ts 2017 1 1) (ts 2017 1 1)
    check 25 (decide ((x1.n : Int) = 1))
    let x2 ← framePeriod x1 0
    check 26 (samePeriod x2 (Period.ofTime (⟨none, .D, by decide⟩ : Freq) (ts 2017 1 1)))
    check 27 (decide (x1.startTime = (ts 2017 1 1)))
    check 28 (decide (x1.endTime ≥ (ts 2017 1 1 23 59 59 + 999999999)))
    check 29 (decide (x1.endTime ≤ (ts 2017 1 2)))
    check 30 (x1.ords == sortList x1.ords)
    pure ()) = true := by decide +kernel

/-- timeboard/tests/test_frames.py 32: `TestFrameConstructor.test_frame_constructor_same_base_unit`. -/
example : passes (do
    let x1 ← Frame.new (⟨none, .D, by decide⟩ : Freq) (ts 2017 1 1 8) (ts 2017 1 1 9)
    check 34 (decide ((x1.n : Int) = 1))
    let x2 ← framePeriod x1 0
    check 35 (samePeriod x2 (Period.ofTime (⟨none, .D, by decide⟩ : Freq) (ts 2017 1 1)))
    check 36 (decide (x1.startTime = (ts 2017 1 1)))
    check 37 (decide (x1.endTime ≥ (ts 2017 1 1 23 59 59 + 999999999)))
    check 38 (decide (x1.endTime ≤ (ts 2017 1 2)))
    check 39 (x1.ords == sortList x1.ords)
    pure ()) = true := by decide +kernel

/-- timeboard/tests/test_frames.py 41: `TestFrameConstructor.test_frame_constructor_multiple_days`. -/
example : passes (do
    let x1 ← Frame.new (⟨some 4, .D, by decide⟩ : Freq) (ts 2017 1 1) (ts 2017 1 8)
    check 43 (decide ((x1.n : Int) = 2))
    let x2 ← framePeriod x1 0
    check 44 (samePeriod x2 (Period.ofTime (⟨some 4, .D, by decide⟩ : Freq) (ts 2017 1 1)))
    let x3 ← framePeriod x1 1
    check 45 (samePeriod x3 (Period.ofTime (⟨some 4, .D, by decide⟩ : Freq) (ts 2017 1 5)))
    check 46 (decide (x1.startTime = (ts 2017 1 1)))
    check 47 (decide (x1.endTime ≥ (ts 2017 1 8 23 59 59 + 999999999)))
    check 48 (decide (x1.endTime ≤ (ts 2017 1 9)))
    check 49 (x1.ords == sortList x1.ords)
    pure ()) = true := by decide +kernel

/-- timeboard/tests/test_frames.py 51: `TestFrameConstructor.test_frame_constructor_multiple_days_partial`. -/
example : passes (do
    let x1 ← Frame.new (⟨some 4, .D, by decide⟩ : Freq) (ts 2017 1 1) (ts 2017 1 10)
    check 53 (decide ((x1.n : Int) = 3))
    let x2 ← framePeriod x1 0
    check 54 (samePeriod x2 (Period.ofTime (⟨some 4, .D, by decide⟩ : Freq) (ts 2017 1 1)))
    let x3 ← framePeriod x1 2
    check 55 (samePeriod x3 (Period.ofTime (⟨some 4, .D, by decide⟩ : Freq) (ts 2017 1 9)))
    check 56 (decide (x1.startTime = (ts 2017 1 1)))
    check 57 (decide (x1.endTime ≥ (ts 2017 1 12 23 59 59 + 999999999)))
    check 58 (decide (x1.endTime ≤ (ts 2017 1 13)))
    check 59 (x1.ords == sortList x1.ords)
    pure ()) = true := by decide +kernel

/-- timeboard/tests/test_frames.py 61: `TestFrameConstructor.test_frame_constructor_weeks`. -/
example : passes (do
    let x1 ← Frame.new (⟨none, .W none, by decide⟩ : Freq) (ts 2017 1 1) (ts 2017 3 1)
    check 63 (decide ((x1.n : Int) = 10))
    let x2 ← framePeriod x1 0
    check 64 (samePeriod x2 (Period.ofTime (⟨none, .W (some 6), by decide⟩ : Freq) (ts 2016 12 26)))
    let x3 ← framePeriod x1 9
    check 65 (samePeriod x3 (Period.ofTime (⟨none, .W (some 6), by decide⟩ : Freq) (ts 2017 2 27)))
    check 66 (decide (x1.startTime = (ts 2016 12 26)))
    check 67 (decide (x1.endTime ≥ (ts 2017 3 5 23 59 59 + 999999999)))
    check 68 (decide (x1.endTime ≤ (ts 2017 3 6)))
    check 69 (x1.ords == sortList x1.ords)
    pure ()) = true := by decide +kernel

/-- timeboard/tests/test_frames.py 71: `TestFrameConstructor.test_frame_constructor_weeks_shifted`. -/
example : passes (do
    let x1 ← Frame.new (⟨none, .W (some 2), by decide⟩ : Freq) (ts 2017 1 1) (ts 2017 3 1)
    check 73 (decide ((x1.n : Int) = 9))
    let x2 ← framePeriod x1 0
    check 74 (samePeriod x2 (Period.ofTime (⟨none, .W (some 2), by decide⟩ : Freq) (ts 2016 12 29)))
    let x3 ← framePeriod x1 8
    check 75 (samePeriod x3 (Period.ofTime (⟨none, .W (some 2), by decide⟩ : Freq) (ts 2017 2 23)))
    check 76 (decide (x1.startTime = (ts 2016 12 29)))
    check 77 (decide (x1.endTime ≥ (ts 2017 3 1 23 59 59 + 999999999)))
    check 78 (decide (x1.endTime ≤ (ts 2017 3 2)))
    check 79 (x1.ords == sortList x1.ords)
    pure ()) = true := by decide +kernel

/-- timeboard/tests/test_frames.py 81: `TestFrameConstructor.test_frame_constructor_months`. -/
example : passes (do
    let x1 ← Frame.new (⟨none, .M, by decide⟩ : Freq) (ts 2017 1 1) (ts 2017 3 1)
    check 83 (decide ((x1.n : Int) = 3))
    let x2 ← framePeriod x1 0
    check 84 (samePeriod x2 (Period.ofTime (⟨none, .M, by decide⟩ : Freq) (ts 2017 1 1)))
    let x3 ← framePeriod x1 2
    check 85 (samePeriod x3 (Period.ofTime (⟨none, .M, by decide⟩ : Freq) (ts 2017 3 1)))
    check 86 (decide (x1.startTime = (ts 2017 1 1)))
    check 87 (decide (x1.endTime ≥ (ts 2017 3 31 23 59 59 + 999999999)))
    check 88 (decide (x1.endTime ≤ (ts 2017 4 1)))
    check 89 (x1.ords == sortList x1.ords)
    pure ()) = true := by decide +kernel

/-- timeboard/tests/test_frames.py 91: `TestFrameConstructor.test_frame_constructor_with_timestamps`. -/
example : passes (do
    let x1 ← Frame.new (⟨none, .M, by decide⟩ : Freq) (ts 2017 1 1 8 0 1) (ts 2017 3 1 12 15 3)
    check 95 (decide ((x1.n : Int) = 3))
    let x2 ← framePeriod x1 0
    check 96 (samePeriod x2 (Period.ofTime (⟨none, .M, by decide⟩ : Freq) (ts 2017 1 1)))
    let x3 ← framePeriod x1 2
    check 97 (samePeriod x3 (Period.ofTime (⟨none, .M, by decide⟩ : Freq) (ts 2017 3 1)))
    check 98 (decide (x1.startTime = (ts 2017 1 1)))
    check 99 (decide (x1.endTime ≥ (ts 2017 3 31 23 59 59 + 999999999)))
    check 100 (decide (x1.endTime ≤ (ts 2017 4 1)))
    check 101 (x1.ords == sortList x1.ords)
    pure ()) = true := by decide +kernel

/-- timeboard/tests/test_frames.py 103: `TestFrameConstructor.test_frame_constructor_with_datetime_redundant`. -/
example : passes (do
    let x1 ← Frame.new (⟨none, .M, by decide⟩ : Freq) (ts 2017 1 1 8 0 1) (ts 2017 3 1 12 15 3)
    check 109 (decide ((x1.n : Int) = 3))
    let x2 ← framePeriod x1 0
    check 110 (samePeriod x2 (Period.ofTime (⟨none, .M, by decide⟩ : Freq) (ts 2017 1 1)))
    let x3 ← framePeriod x1 2
    check 111 (samePeriod x3 (Period.ofTime (⟨none, .M, by decide⟩ : Freq) (ts 2017 3 1)))
    check 112 (decide (x1.startTime = (ts 2017 1 1)))
    check 113 (decide (x1.endTime ≥ (ts 2017 3 31 23 59 59 + 999999999)))
    check 114 (decide (x1.endTime ≤ (ts 2017 4 1)))
    check 115 (x1.ords == sortList x1.ords)
    pure ()) = true := by decide +kernel

/-- timeboard/tests/test_frames.py 117: `TestFrameConstructor.test_frame_constructor_with_datetime_deficient`. -/
example : passes (do
    let x1 ← Frame.new (⟨none, .H, by decide⟩ : Freq) (ts 2017 1 1) (ts 2017 1 2)
    check 121 (decide ((x1.n : Int) = 25))
    let x2 ← framePeriod x1 0
    check 122 (samePeriod x2 (Period.ofTime (⟨none, .H, by decide⟩ : Freq) (ts 2017 1 1)))
    let x3 ← framePeriod x1 24
    check 123 (samePeriod x3 (Period.ofTime (⟨none, .H, by decide⟩ : Freq) (ts 2017 1 2)))
    check 124 (decide (x1.startTime = (ts 2017 1 1)))
    check 125 (decide (x1.endTime ≥ (ts 2017 1 2 0 59 59 + 999999999)))
    check 126 (decide (x1.endTime ≤ (ts 2017 1 2 1)))
    check 127 (x1.ords == sortList x1.ords)
    pure ()) = true := by decide +kernel

/-- timeboard/tests/test_frames.py 129: `TestFrameConstructor.test_frame_constructor_days_from_periods`. -/
example : passes (do
    let x1 ← Frame.new (⟨none, .D, by decide⟩ : Freq) (Period.ofTime (⟨none, .D, by decide⟩ : Freq) (ts 2017 1 1)).endTime (Period.ofTime (⟨none, .D, by decide⟩ : Freq) (ts 2017 3 1)).endTime
    check 133 (decide ((x1.n : Int) = 60))
    let x2 ← framePeriod x1 0
    check 134 (samePeriod x2 (Period.ofTime (⟨none, .D, by decide⟩ : Freq) (ts 2017 1 1)))
    let x3 ← framePeriod x1 59
    check 135 (samePeriod x3 (Period.ofTime (⟨none, .D, by decide⟩ : Freq) (ts 2017 3 1)))
    check 136 (decide (x1.startTime = (ts 2017 1 1)))
    check 137 (decide (x1.endTime ≥ (ts 2017 3 1 23 59 59 + 999999999)))
    check 138 (decide (x1.endTime ≤ (ts 2017 3 2)))
    check 139 (x1.ords == sortList x1.ords)
    pure ()) = true := by decide +kernel

/-- timeboard/tests/test_frames.py 141: `TestFrameConstructor.test_frame_constructor_days_from_subperiods`. -/
example : passes (do
    let x1 ← Frame.new (⟨none, .D, by decide⟩ : Freq) (Period.ofTime (⟨none, .H, by decide⟩ : Freq) (ts 2017 1 1 12)).endTime (Period.ofTime (⟨none, .H, by decide⟩ : Freq) (ts 2017 3 1 15)).endTime
    check 145 (decide ((x1.n : Int) = 60))
    let x2 ← framePeriod x1 0
    check 146 (samePeriod x2 (Period.ofTime (⟨none, .D, by decide⟩ : Freq) (ts 2017 1 1)))
    let x3 ← framePeriod x1 59
    check 147 (samePeriod x3 (Period.ofTime (⟨none, .D, by decide⟩ : Freq) (ts 2017 3 1)))
    check 148 (decide (x1.startTime = (ts 2017 1 1)))
    check 149 (decide (x1.endTime ≥ (ts 2017 3 1 23 59 59 + 999999999)))
    check 150 (decide (x1.endTime ≤ (ts 2017 3 2)))
    check 151 (x1.ords == sortList x1.ords)
    pure ()) = true := by decide +kernel

/-- timeboard/tests/test_frames.py 153: `TestFrameConstructor.test_frame_constructor_days_from_superperiods`. -/
example : passes (do
    let x1 ← Frame.new (⟨none, .D, by decide⟩ : Freq) (Period.ofTime (⟨none, .M, by decide⟩ : Freq) (ts 2017 1 1)).endTime (Period.ofTime (⟨none, .M, by decide⟩ : Freq) (ts 2017 3 1)).endTime
    check 160 (decide ((x1.n : Int) = 60))
    let x2 ← framePeriod x1 0
    check 161 (samePeriod x2 (Period.ofTime (⟨none, .D, by decide⟩ : Freq) (ts 2017 1 31)))
    let x3 ← framePeriod x1 59
    check 162 (samePeriod x3 (Period.ofTime (⟨none, .D, by decide⟩ : Freq) (ts 2017 3 31)))
    check 163 (decide (x1.startTime = (ts 2017 1 31)))
    check 164 (decide (x1.endTime ≥ (ts 2017 3 31 23 59 59 + 999999999)))
    check 165 (decide (x1.endTime ≤ (ts 2017 4 1)))
    check 166 (x1.ords == sortList x1.ords)
    pure ()) = true := by decide +kernel

/-- timeboard/tests/test_frames.py 168: `TestFrameConstructor.test_frame_constructor_days_from_nonsubperiods`. -/
example : passes (do
    let x1 ← Frame.new (⟨none, .M, by decide⟩ : Freq) (Period.ofTime (⟨none, .W none, by decide⟩ : Freq) (ts 2016 12 31)).endTime (Period.ofTime (⟨none, .W none, by decide⟩ : Freq) (ts 2017 3 1)).endTime
    check 176 (decide ((x1.n : Int) = 3))
    let x2 ← framePeriod x1 0
    check 177 (samePeriod x2 (Period.ofTime (⟨none, .M, by decide⟩ : Freq) (ts 2017 1 1)))
    let x3 ← framePeriod x1 2
    check 178 (samePeriod x3 (Period.ofTime (⟨none, .M, by decide⟩ : Freq) (ts 2017 3 1)))
    check 179 (decide (x1.startTime = (ts 2017 1 1)))
    check 180 (decide (x1.endTime ≥ (ts 2017 3 31 23 59 59 + 999999999)))
    check 181 (decide (x1.endTime ≤ (ts 2017 4 1)))
    check 182 (x1.ords == sortList x1.ords)
    pure ()) = true := by decide +kernel

/-- timeboard/tests/test_frames.py 184: `TestFrameConstructor.test_frame_constructor_end_before_start`. -/
example : passes (do
    raises 185 [.voidInterval] (do
      let x1 ← Frame.new (⟨none, .D, by decide⟩ : Freq) (ts 2017 3 1) (ts 2017 1 1)
      pure ())
    pure ()) = true := by decide +kernel

/-- timeboard/tests/test_frames.py 218: `TestFrameLocSubframesWhole.test_frame_locsubf_basic`. -/
example : passes (do
    let x1 ← Frame.new (⟨none, .D, by decide⟩ : Freq) (ts 2017 1 1) (ts 2017 3 1)
    let x2 ← x1.locateSubspans { first := 0, last := ((x1.n : Int) - 1), skipLeft := 0, skipRight := 0 } [(ts 2017 1 10), (ts 2017 2 10 12 12 12), (ts 2017 2 20 11 5)]
    check 224 (decide ((x2.length : Int) = 4))
    let x3 ← item x2 0
    check 226 (decide (x3 = (0, 8)))
    let x4 ← item x2 1
    check 226 (decide (x4 = (9, 39)))
    let x5 ← item x2 2
    check 226 (decide (x5 = (40, 49)))
    let x6 ← item x2 3
    check 226 (decide (x6 = (50, 59)))
    pure ()) = true := by decide +kernel

/-- timeboard/tests/test_frames.py 228: `TestFrameLocSubframesWhole.test_frame_locsubf_multiplied_freq`. -/
example : passes (do
    let x1 ← Frame.new (⟨some 2, .D, by decide⟩ : Freq) (ts 2016 12 31) (ts 2017 1 9)
    let x2 ← x1.locateSubspans { first := 0, last := ((x1.n : Int) - 1), skipLeft := 0, skipRight := 0 } [(ts 2017 1 2), (ts 2017 1 2 12 12 12), (ts 2017 1 7), (ts 2017 1 7 11 5)]
    check 235 (decide ((x2.length : Int) = 3))
    let x3 ← item x2 0
    check 236 (decide (x3 = (0, 0)))
    let x4 ← item x2 1
    check 237 (decide (x4 = (1, 2)))
    let x5 ← item x2 2
    check 238 (decide (x5 = (3, 4)))
    pure ()) = true := by decide +kernel

/-- timeboard/tests/test_frames.py 240: `TestFrameLocSubframesWhole.test_frame_locsubf_basic_from_dti`. -/
example : passes (do
    let x1 ← Frame.new (⟨none, .D, by decide⟩ : Freq) (ts 2017 1 1) (ts 2017 3 1)
    let x2 ← x1.locateSubspans { first := 0, last := ((x1.n : Int) - 1), skipLeft := 0, skipRight := 0 } [(ts 2017 1 10), (ts 2017 2 10 12 12 12), (ts 2017 2 20 11 5)]
    check 247 (decide ((x2.length : Int) = 4))
    let x3 ← item x2 0
    check 249 (decide (x3 = (0, 8)))
    let x4 ← item x2 1
    check 249 (decide (x4 = (9, 39)))
    let x5 ← item x2 2
    check 249 (decide (x5 = (40, 49)))
    let x6 ← item x2 3
    check 249 (decide (x6 = (50, 59)))
    pure ()) = true := by decide +kernel

/-- timeboard/tests/test_frames.py 251: `TestFrameLocSubframesWhole.test_frame_locsubf_unordered`. -/
example : passes (do
    let x1 ← Frame.new (⟨none, .D, by decide⟩ : Freq) (ts 2017 1 1) (ts 2017 3 1)
    let x2 ← x1.locateSubspans { first := 0, last := ((x1.n : Int) - 1), skipLeft := 0, skipRight := 0 } [(ts 2017 2 20 11 5), (ts 2017 2 10 12 12 12), (ts 2017 1 10)]
    check 257 (decide ((x2.length : Int) = 4))
    let x3 ← item x2 0
    check 259 (decide (x3 = (0, 8)))
    let x4 ← item x2 1
    check 259 (decide (x4 = (9, 39)))
    let x5 ← item x2 2
    check 259 (decide (x5 = (40, 49)))
    let x6 ← item x2 3
    check 259 (decide (x6 = (50, 59)))
    pure ()) = true := by decide +kernel

/-- timeboard/tests/test_frames.py 261: `TestFrameLocSubframesWhole.test_frame_locsubf_multiple_points_per_bu`. -/
example : passes (do
    let x1 ← Frame.new (⟨none, .D, by decide⟩ : Freq) (ts 2017 1 1) (ts 2017 3 1)
    let x2 ← x1.locateSubspans { first := 0, last := ((x1.n : Int) - 1), skipLeft := 0, skipRight := 0 } [(ts 2017 1 10), (ts 2017 2 10 12 12 12), (ts 2017 2 10 20 20 20), (ts 2017 2 20 11 5)]
    check 268 (decide ((x2.length : Int) = 4))
    let x3 ← item x2 0
    check 270 (decide (x3 = (0, 8)))
    let x4 ← item x2 1
    check 270 (decide (x4 = (9, 39)))
    let x5 ← item x2 2
    check 270 (decide (x5 = (40, 49)))
    let x6 ← item x2 3
    check 270 (decide (x6 = (50, 59)))
    pure ()) = true := by decide +kernel

/-- timeboard/tests/test_frames.py 272: `TestFrameLocSubframesWhole.test_frame_locsubf_with_points_outside`. -/
example : passes (do
    let x1 ← Frame.new (⟨none, .D, by decide⟩ : Freq) (ts 2017 1 1) (ts 2017 3 1)
    let x2 ← x1.locateSubspans { first := 0, last := ((x1.n : Int) - 1), skipLeft := 0, skipRight := 0 } [(ts 2016 12 30), (ts 2017 1 10), (ts 2017 2 10 12 12 12), (ts 2017 2 20 11 5), (ts 2018 2 20)]
    check 280 (decide ((x2.length : Int) = 4))
    let x3 ← item x2 0
    check 282 (decide (x3 = (0, 8)))
    let x4 ← item x2 1
    check 282 (decide (x4 = (9, 39)))
    let x5 ← item x2 2
    check 282 (decide (x5 = (40, 49)))
    let x6 ← item x2 3
    check 282 (decide (x6 = (50, 59)))
    pure ()) = true := by decide +kernel

/-- timeboard/tests/test_frames.py 284: `TestFrameLocSubframesWhole.test_frame_locsubf_with_point_outside_only`. -/
example : passes (do
    let x1 ← Frame.new (⟨none, .D, by decide⟩ : Freq) (ts 2017 1 1) (ts 2017 3 1)
    let x2 ← x1.locateSubspans { first := 0, last := ((x1.n : Int) - 1), skipLeft := 0, skipRight := 0 } [(ts 2016 12 30), (ts 2018 2 20)]
    check 289 (decide ((x2.length : Int) = 1))
    let x3 ← item x2 0
    check 290 (decide (x3 = (0, 59)))
    pure ()) = true := by decide +kernel

/-- timeboard/tests/test_frames.py 292: `TestFrameLocSubframesWhole.test_frame_locsubf_with_first_bu`. -/
example : passes (do
    let x1 ← Frame.new (⟨none, .D, by decide⟩ : Freq) (ts 2017 1 1) (ts 2017 3 1)
    let x2 ← x1.locateSubspans { first := 0, last := ((x1.n : Int) - 1), skipLeft := 0, skipRight := 0 } [(ts 2017 1 1), (ts 2017 1 10), (ts 2017 2 10 12 12 12), (ts 2017 2 20 11 5)]
    check 299 (decide ((x2.length : Int) = 4))
    let x3 ← item x2 0
    check 301 (decide (x3 = (0, 8)))
    let x4 ← item x2 1
    check 301 (decide (x4 = (9, 39)))
    let x5 ← item x2 2
    check 301 (decide (x5 = (40, 49)))
    let x6 ← item x2 3
    check 301 (decide (x6 = (50, 59)))
    pure ()) = true := by decide +kernel

/-- timeboard/tests/test_frames.py 303: `TestFrameLocSubframesWhole.test_frame_locsubf_at_first_bu_only`. -/
example : passes (do
    let x1 ← Frame.new (⟨none, .D, by decide⟩ : Freq) (ts 2017 1 1) (ts 2017 3 1)
    let x2 ← x1.locateSubspans { first := 0, last := ((x1.n : Int) - 1), skipLeft := 0, skipRight := 0 } [(ts 2017 1 1)]
    check 307 (decide ((x2.length : Int) = 1))
    let x3 ← item x2 0
    check 308 (decide (x3 = (0, 59)))
    pure ()) = true := by decide +kernel

/-- timeboard/tests/test_frames.py 310: `TestFrameLocSubframesWhole.test_frame_locsubf_at_last_bu`. -/
example : passes (do
    let x1 ← Frame.new (⟨none, .D, by decide⟩ : Freq) (ts 2017 1 1) (ts 2017 3 1)
    let x2 ← x1.locateSubspans { first := 0, last := ((x1.n : Int) - 1), skipLeft := 0, skipRight := 0 } [(ts 2017 3 1)]
    check 314 (decide ((x2.length : Int) = 2))
    let x3 ← item x2 0
    check 315 (decide (x3 = (0, 58)))
    let x4 ← item x2 1
    check 316 (decide (x4 = (59, 59)))
    pure ()) = true := by decide +kernel

/-- timeboard/tests/test_frames.py 318: `TestFrameLocSubframesWhole.test_frame_split_empty`. -/
example : passes (do
    let x1 ← Frame.new (⟨none, .D, by decide⟩ : Freq) (ts 2017 1 1) (ts 2017 3 1)
    let x2 ← x1.locateSubspans { first := 0, last := ((x1.n : Int) - 1), skipLeft := 0, skipRight := 0 } []
    check 322 (decide ((x2.length : Int) = 1))
    let x3 ← item x2 0
    check 323 (decide (x3 = (0, 59)))
    pure ()) = true := by decide +kernel

/-- timeboard/tests/test_frames.py 328: `TestFrameLocSubframesSpan.test_frame_locsubf_int_basic`. -/
example : passes (do
    let x1 ← Frame.new (⟨none, .D, by decide⟩ : Freq) (ts 2017 1 1) (ts 2017 3 1)
    let x2 ← x1.locateSubspans { first := 5, last := 55, skipLeft := 0, skipRight := 0 } [(ts 2017 1 10), (ts 2017 2 10 12 12 12), (ts 2017 2 20 11 5)]
    check 334 (decide ((x2.length : Int) = 4))
    let x3 ← item x2 0
    check 336 (decide (x3 = (5, 8)))
    let x4 ← item x2 1
    check 336 (decide (x4 = (9, 39)))
    let x5 ← item x2 2
    check 336 (decide (x5 = (40, 49)))
    let x6 ← item x2 3
    check 336 (decide (x6 = (50, 55)))
    pure ()) = true := by decide +kernel

/-- timeboard/tests/test_frames.py 338: `TestFrameLocSubframesSpan.test_frame_locsubf_with_points_outside`. -/
example : passes (do
    let x1 ← Frame.new (⟨none, .D, by decide⟩ : Freq) (ts 2017 1 1) (ts 2017 3 1)
    let x2 ← x1.locateSubspans { first := 5, last := 55, skipLeft := 0, skipRight := 0 } [(ts 2016 12 30), (ts 2017 1 10), (ts 2017 2 10 12 12 12), (ts 2017 2 20 11 5), (ts 2018 2 20)]
    check 346 (decide ((x2.length : Int) = 4))
    let x3 ← item x2 0
    check 348 (decide (x3 = (5, 8)))
    let x4 ← item x2 1
    check 348 (decide (x4 = (9, 39)))
    let x5 ← item x2 2
    check 348 (decide (x5 = (40, 49)))
    let x6 ← item x2 3
    check 348 (decide (x6 = (50, 55)))
    pure ()) = true := by decide +kernel

/-- timeboard/tests/test_frames.py 350: `TestFrameLocSubframesSpan.test_frame_locsubf_with_point_outside_only`. -/
example : passes (do
    let x1 ← Frame.new (⟨none, .D, by decide⟩ : Freq) (ts 2017 1 1) (ts 2017 3 1)
    let x2 ← x1.locateSubspans { first := 5, last := 55, skipLeft := 0, skipRight := 0 } [(ts 2016 12 30), (ts 2018 2 20)]
    check 355 (decide ((x2.length : Int) = 1))
    let x3 ← item x2 0
    check 356 (decide (x3 = (5, 55)))
    pure ()) = true := by decide +kernel

/-- timeboard/tests/test_frames.py 358: `TestFrameLocSubframesSpan.test_frame_locsubf_with_first_bu`. -/
example : passes (do
    let x1 ← Frame.new (⟨none, .D, by decide⟩ : Freq) (ts 2017 1 1) (ts 2017 3 1)
    let x2 ← x1.locateSubspans { first := 5, last := 55, skipLeft := 0, skipRight := 0 } [(ts 2017 1 6), (ts 2017 1 10), (ts 2017 2 10 12 12 12), (ts 2017 2 20 11 5)]
    check 365 (decide ((x2.length : Int) = 4))
    let x3 ← item x2 0
    check 367 (decide (x3 = (5, 8)))
    let x4 ← item x2 1
    check 367 (decide (x4 = (9, 39)))
    let x5 ← item x2 2
    check 367 (decide (x5 = (40, 49)))
    let x6 ← item x2 3
    check 367 (decide (x6 = (50, 55)))
    pure ()) = true := by decide +kernel

/-- timeboard/tests/test_frames.py 369: `TestFrameLocSubframesSpan.test_frame_locsubf_at_first_bu_only`. -/
example : passes (do
    let x1 ← Frame.new (⟨none, .D, by decide⟩ : Freq) (ts 2017 1 1) (ts 2017 3 1)
    let x2 ← x1.locateSubspans { first := 5, last := 55, skipLeft := 0, skipRight := 0 } [(ts 2017 1 6)]
    check 373 (decide ((x2.length : Int) = 1))
    let x3 ← item x2 0
    check 374 (decide (x3 = (5, 55)))
    pure ()) = true := by decide +kernel

/-- timeboard/tests/test_frames.py 376: `TestFrameLocSubframesSpan.test_frame_locsubf_span_single`. -/
example : passes (do
    let x1 ← Frame.new (⟨none, .D, by decide⟩ : Freq) (ts 2017 1 1) (ts 2017 3 1)
    let x2 ← x1.locateSubspans { first := 5, last := 5, skipLeft := 0, skipRight := 0 } [(ts 2017 1 6)]
    check 380 (decide ((x2.length : Int) = 1))
    let x3 ← item x2 0
    check 381 (decide (x3 = (5, 5)))
    pure ()) = true := by decide +kernel

/-- timeboard/tests/test_frames.py 383: `TestFrameLocSubframesSpan.test_frame_locsubf_span_single_points_outside`. -/
example : passes (do
    let x1 ← Frame.new (⟨none, .D, by decide⟩ : Freq) (ts 2017 1 1) (ts 2017 3 1)
    let x2 ← x1.locateSubspans { first := 5, last := 5, skipLeft := 0, skipRight := 0 } [(ts 2017 1 7)]
    check 387 (decide ((x2.length : Int) = 1))
    let x3 ← item x2 0
    check 388 (decide (x3 = (5, 5)))
    pure ()) = true := by decide +kernel

/-- timeboard/tests/test_frames.py 390: `TestFrameLocSubframesSpan.test_frame_locsubf_span_single_no_points`. -/
example : passes (do
    let x1 ← Frame.new (⟨none, .D, by decide⟩ : Freq) (ts 2017 1 1) (ts 2017 3 1)
    let x2 ← x1.locateSubspans { first := 5, last := 5, skipLeft := 0, skipRight := 0 } []
    check 394 (decide ((x2.length : Int) = 1))
    let x3 ← item x2 0
    check 395 (decide (x3 = (5, 5)))
    pure ()) = true := by decide +kernel

/-- timeboard/tests/test_frames.py 397: `TestFrameLocSubframesSpan.test_frame_locsubf_span_single_at_zero`. -/
example : passes (do
    let x1 ← Frame.new (⟨none, .D, by decide⟩ : Freq) (ts 2017 1 1) (ts 2017 3 1)
    let x2 ← x1.locateSubspans { first := 0, last := 0, skipLeft := 0, skipRight := 0 } []
    check 401 (decide ((x2.length : Int) = 1))
    let x3 ← item x2 0
    check 402 (decide (x3 = (0, 0)))
    pure ()) = true := by decide +kernel

/-- timeboard/tests/test_frames.py 404: `TestFrameLocSubframesSpan.test_frame_locsubf_span_negative1`. -/
example : passes (do
    let x1 ← Frame.new (⟨none, .D, by decide⟩ : Freq) (ts 2017 1 1) (ts 2017 3 1)
    raises 407 [.outOfBounds] (do
      let x2 ← x1.locateSubspans { first := (-55), last := 55, skipLeft := 0, skipRight := 0 } [(ts 2017 2 10 12 12 12)]
      pure ())
    pure ()) = true := by decide +kernel

/-- timeboard/tests/test_frames.py 410: `TestFrameLocSubframesSpan.test_frame_locsubf_span_negative2`. -/
example : passes (do
    let x1 ← Frame.new (⟨none, .D, by decide⟩ : Freq) (ts 2017 1 1) (ts 2017 3 1)
    raises 413 [.outOfBounds] (do
      let x2 ← x1.locateSubspans { first := 5, last := (-5), skipLeft := 0, skipRight := 0 } [(ts 2017 2 10 12 12 12)]
      pure ())
    pure ()) = true := by decide +kernel

/-- timeboard/tests/test_frames.py 416: `TestFrameLocSubframesSpan.test_frame_locsubf_span_outside`. -/
example : passes (do
    let x1 ← Frame.new (⟨none, .D, by decide⟩ : Freq) (ts 2017 1 1) (ts 2017 3 1)
    raises 419 [.outOfBounds] (do
      let x2 ← x1.locateSubspans { first := 5, last := 70, skipLeft := 0, skipRight := 0 } [(ts 2017 2 10 12 12 12)]
      pure ())
    pure ()) = true := by decide +kernel

/-- timeboard/tests/test_frames.py 422: `TestFrameLocSubframesSpan.test_frame_locsubf_span_reverse_`. -/
example : passes (do
    let x1 ← Frame.new (⟨none, .D, by decide⟩ : Freq) (ts 2017 1 1) (ts 2017 3 1)
    raises 425 [.voidInterval] (do
      let x2 ← x1.locateSubspans { first := 55, last := 5, skipLeft := 0, skipRight := 0 } [(ts 2017 2 10 12 12 12)]
      pure ())
    pure ()) = true := by decide +kernel

end TB.Conf
