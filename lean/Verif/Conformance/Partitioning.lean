import Verif.Conformance.Support
/-!
# `timeboard/tests/test_partitioning.py`

Generated by `tools/conformance.py`.  One example per unit test: the statements of the test, performed by the
model, succeed.  These are checks of the model on single inputs, not proofs of properties.
-/
set_option linter.unusedVariables false
namespace TB.Conf

/-- timeboard/tests/test_partitioning.py 42: `TestDaysSplitByWeekly.test_days_splitby_weekly_aligned`. -/
example : passes (do
    let x1 ← Frame.new (⟨none, .D, by decide⟩ : Freq) (ts 2017 1 2) (ts 2017 1 15)
    let x2 ← x1.partitionWithMarker { first := 0, last := ((x1.n : Int) - 1), skipLeft := 0, skipRight := 0 } { each := (⟨none, .W none, by decide⟩ : Freq), ats := [] }
    check 45 (decide ((x2.length : Int) = 2))
    let x3 ← item x2 0
    check 46 ((decide (x3.first = 0)) && (decide (x3.last = 6)) && (decide (x3.skipLeft = 0)) && (decide (x3.skipRight = 0)))
    let x4 ← item x2 1
    check 47 ((decide (x4.first = 7)) && (decide (x4.last = 13)) && (decide (x4.skipLeft = 0)) && (decide (x4.skipRight = 0)))
    pure ()) = true := by decide +kernel

/-- timeboard/tests/test_partitioning.py 49: `TestDaysSplitByWeekly.test_days_splitby_weekly_dangling`. -/
example : passes (do
    let x1 ← Frame.new (⟨none, .D, by decide⟩ : Freq) (ts 2017 1 1) (ts 2017 1 18)
    let x2 ← x1.partitionWithMarker { first := 0, last := ((x1.n : Int) - 1), skipLeft := 0, skipRight := 0 } { each := (⟨none, .W none, by decide⟩ : Freq), ats := [] }
    check 52 (decide ((x2.length : Int) = 4))
    let x3 ← item x2 0
    check 53 ((decide (x3.first = 0)) && (decide (x3.last = 0)) && (decide (x3.skipLeft = 6)) && (decide (x3.skipRight = 0)))
    let x4 ← item x2 1
    check 54 ((decide (x4.first = 1)) && (decide (x4.last = 7)) && (decide (x4.skipLeft = 0)) && (decide (x4.skipRight = 0)))
    let x5 ← item x2 2
    check 55 ((decide (x5.first = 8)) && (decide (x5.last = 14)) && (decide (x5.skipLeft = 0)) && (decide (x5.skipRight = 0)))
    let x6 ← item x2 3
    check 56 ((decide (x6.first = 15)) && (decide (x6.last = 17)) && (decide (x6.skipLeft = 0)) && (decide (x6.skipRight = 4)))
    pure ()) = true := by decide +kernel

/-- timeboard/tests/test_partitioning.py 58: `TestDaysSplitByWeekly.test_days_splitby_weekly_short`. -/
example : passes (do
    let x1 ← Frame.new (⟨none, .D, by decide⟩ : Freq) (ts 2017 1 3) (ts 2017 1 6)
    let x2 ← x1.partitionWithMarker { first := 0, last := ((x1.n : Int) - 1), skipLeft := 0, skipRight := 0 } { each := (⟨none, .W none, by decide⟩ : Freq), ats := [] }
    check 61 (decide ((x2.length : Int) = 1))
    let x3 ← item x2 0
    check 62 ((decide (x3.first = 0)) && (decide (x3.last = 3)) && (decide (x3.skipLeft = 1)) && (decide (x3.skipRight = 2)))
    pure ()) = true := by decide +kernel

/-- timeboard/tests/test_partitioning.py 64: `TestDaysSplitByWeekly.test_days_splitby_weekly_dangling_span`. -/
example : passes (do
    let x1 ← Frame.new (⟨none, .D, by decide⟩ : Freq) (ts 2017 1 1) (ts 2017 1 18)
    let x2 ← x1.partitionWithMarker { first := 4, last := 15, skipLeft := 0, skipRight := 0 } { each := (⟨none, .W none, by decide⟩ : Freq), ats := [] }
    check 67 (decide ((x2.length : Int) = 3))
    let x3 ← item x2 0
    check 68 ((decide (x3.first = 4)) && (decide (x3.last = 7)) && (decide (x3.skipLeft = 3)) && (decide (x3.skipRight = 0)))
    let x4 ← item x2 1
    check 69 ((decide (x4.first = 8)) && (decide (x4.last = 14)) && (decide (x4.skipLeft = 0)) && (decide (x4.skipRight = 0)))
    let x5 ← item x2 2
    check 70 ((decide (x5.first = 15)) && (decide (x5.last = 15)) && (decide (x5.skipLeft = 0)) && (decide (x5.skipRight = 6)))
    pure ()) = true := by decide +kernel

/-- timeboard/tests/test_partitioning.py 72: `TestDaysSplitByWeekly.test_days_splitby_weekly_dangling_span_aligned`. -/
example : passes (do
    let x1 ← Frame.new (⟨none, .D, by decide⟩ : Freq) (ts 2017 1 1) (ts 2017 1 18)
    let x2 ← x1.partitionWithMarker { first := 1, last := 14, skipLeft := 0, skipRight := 0 } { each := (⟨none, .W none, by decide⟩ : Freq), ats := [] }
    check 75 (decide ((x2.length : Int) = 2))
    let x3 ← item x2 0
    check 76 ((decide (x3.first = 1)) && (decide (x3.last = 7)) && (decide (x3.skipLeft = 0)) && (decide (x3.skipRight = 0)))
    let x4 ← item x2 1
    check 77 ((decide (x4.first = 8)) && (decide (x4.last = 14)) && (decide (x4.skipLeft = 0)) && (decide (x4.skipRight = 0)))
    pure ()) = true := by decide +kernel

/-- timeboard/tests/test_partitioning.py 79: `TestDaysSplitByWeekly.test_days_splitby_weekly_shifted`. -/
example : passes (do
    let x1 ← Frame.new (⟨none, .D, by decide⟩ : Freq) (ts 2017 1 1) (ts 2017 1 15)
    let x2 ← x1.partitionWithMarker { first := 1, last := 12, skipLeft := 0, skipRight := 0 } { each := (⟨none, .W (some 0), by decide⟩ : Freq), ats := [] }
    check 82 (decide ((x2.length : Int) = 3))
    let x3 ← item x2 0
    check 83 ((decide (x3.first = 1)) && (decide (x3.last = 1)) && (decide (x3.skipLeft = 6)) && (decide (x3.skipRight = 0)))
    let x4 ← item x2 1
    check 84 ((decide (x4.first = 2)) && (decide (x4.last = 8)) && (decide (x4.skipLeft = 0)) && (decide (x4.skipRight = 0)))
    let x5 ← item x2 2
    check 85 ((decide (x5.first = 9)) && (decide (x5.last = 12)) && (decide (x5.skipLeft = 0)) && (decide (x5.skipRight = 3)))
    pure ()) = true := by decide +kernel

/-- timeboard/tests/test_partitioning.py 90: `TestDaysSplitByWeeklyAtPoints.test_days_splitby_weekly_atpoints_empty`. -/
example : passes (do
    let x1 ← Frame.new (⟨none, .D, by decide⟩ : Freq) (ts 2017 1 2) (ts 2017 1 15)
    let x2 ← x1.partitionWithMarker { first := 0, last := ((x1.n : Int) - 1), skipLeft := 0, skipRight := 0 } { each := (⟨none, .W none, by decide⟩ : Freq), ats := [] }
    check 93 (decide ((x2.length : Int) = 2))
    let x3 ← item x2 0
    check 94 ((decide (x3.first = 0)) && (decide (x3.last = 6)) && (decide (x3.skipLeft = 0)) && (decide (x3.skipRight = 0)))
    let x4 ← item x2 1
    check 95 ((decide (x4.first = 7)) && (decide (x4.last = 13)) && (decide (x4.skipLeft = 0)) && (decide (x4.skipRight = 0)))
    pure ()) = true := by decide +kernel

/-- timeboard/tests/test_partitioning.py 97: `TestDaysSplitByWeeklyAtPoints.test_days_splitby_weekly_atpoints_withzerobound`. -/
example : passes (do
    let x1 ← Frame.new (⟨none, .D, by decide⟩ : Freq) (ts 2017 1 2) (ts 2017 1 15)
    let x2 ← x1.partitionWithMarker { first := 0, last := ((x1.n : Int) - 1), skipLeft := 0, skipRight := 0 } { each := (⟨none, .W none, by decide⟩ : Freq), ats := [fromStartOfEach (some { days := 0 }), fromStartOfEach (some { days := 2 }), fromStartOfEach (some { days := 5 })] }
    check 103 (decide ((x2.length : Int) = 6))
    let x3 ← item x2 0
    check 104 ((decide (x3.first = 0)) && (decide (x3.last = 1)) && (decide (x3.skipLeft = 0)) && (decide (x3.skipRight = 0)))
    let x4 ← item x2 1
    check 105 ((decide (x4.first = 2)) && (decide (x4.last = 4)) && (decide (x4.skipLeft = 0)) && (decide (x4.skipRight = 0)))
    let x5 ← item x2 2
    check 106 ((decide (x5.first = 5)) && (decide (x5.last = 6)) && (decide (x5.skipLeft = 0)) && (decide (x5.skipRight = 0)))
    let x6 ← item x2 3
    check 107 ((decide (x6.first = 7)) && (decide (x6.last = 8)) && (decide (x6.skipLeft = 0)) && (decide (x6.skipRight = 0)))
    let x7 ← item x2 4
    check 108 ((decide (x7.first = 9)) && (decide (x7.last = 11)) && (decide (x7.skipLeft = 0)) && (decide (x7.skipRight = 0)))
    let x8 ← item x2 5
    check 109 ((decide (x8.first = 12)) && (decide (x8.last = 13)) && (decide (x8.skipLeft = 0)) && (decide (x8.skipRight = 0)))
    pure ()) = true := by decide +kernel

/-- timeboard/tests/test_partitioning.py 111: `TestDaysSplitByWeeklyAtPoints.test_days_splitby_weekly_atpoints_1`. -/
example : passes (do
    let x1 ← Frame.new (⟨none, .D, by decide⟩ : Freq) (ts 2017 1 2) (ts 2017 1 15)
    let x2 ← x1.partitionWithMarker { first := 0, last := ((x1.n : Int) - 1), skipLeft := 0, skipRight := 0 } { each := (⟨none, .W none, by decide⟩ : Freq), ats := [fromStartOfEach (some { days := 2 }), fromStartOfEach (some { days := 5 })] }
    check 118 (decide ((x2.length : Int) = 5))
    let x3 ← item x2 0
    check 119 ((decide (x3.first = 0)) && (decide (x3.last = 1)) && (decide (x3.skipLeft = 2)) && (decide (x3.skipRight = 0)))
    let x4 ← item x2 1
    check 121 ((decide (x4.first = 2)) && (decide (x4.last = 4)) && (decide (x4.skipLeft = 0)) && (decide (x4.skipRight = 0)))
    let x5 ← item x2 2
    check 122 ((decide (x5.first = 5)) && (decide (x5.last = 8)) && (decide (x5.skipLeft = 0)) && (decide (x5.skipRight = 0)))
    let x6 ← item x2 3
    check 123 ((decide (x6.first = 9)) && (decide (x6.last = 11)) && (decide (x6.skipLeft = 0)) && (decide (x6.skipRight = 0)))
    let x7 ← item x2 4
    check 124 ((decide (x7.first = 12)) && (decide (x7.last = 13)) && (decide (x7.skipLeft = 0)) && (decide (x7.skipRight = 2)))
    pure ()) = true := by decide +kernel

/-- timeboard/tests/test_partitioning.py 128: `TestDaysSplitByWeeklyAtPoints.test_days_splitby_weekly_atpoints_2`. -/
example : passes (do
    let x1 ← Frame.new (⟨none, .D, by decide⟩ : Freq) (ts 2016 12 31) (ts 2017 1 17)
    let x2 ← x1.partitionWithMarker { first := 0, last := ((x1.n : Int) - 1), skipLeft := 0, skipRight := 0 } { each := (⟨none, .W none, by decide⟩ : Freq), ats := [fromStartOfEach (some { days := 2 }), fromStartOfEach (some { days := 5 })] }
    check 135 (decide ((x2.length : Int) = 5))
    let x3 ← item x2 0
    check 136 ((decide (x3.first = 0)) && (decide (x3.last = 3)) && (decide (x3.skipLeft = 0)) && (decide (x3.skipRight = 0)))
    let x4 ← item x2 1
    check 137 ((decide (x4.first = 4)) && (decide (x4.last = 6)) && (decide (x4.skipLeft = 0)) && (decide (x4.skipRight = 0)))
    let x5 ← item x2 2
    check 138 ((decide (x5.first = 7)) && (decide (x5.last = 10)) && (decide (x5.skipLeft = 0)) && (decide (x5.skipRight = 0)))
    let x6 ← item x2 3
    check 139 ((decide (x6.first = 11)) && (decide (x6.last = 13)) && (decide (x6.skipLeft = 0)) && (decide (x6.skipRight = 0)))
    let x7 ← item x2 4
    check 140 ((decide (x7.first = 14)) && (decide (x7.last = 17)) && (decide (x7.skipLeft = 0)) && (decide (x7.skipRight = 0)))
    pure ()) = true := by decide +kernel

/-- timeboard/tests/test_partitioning.py 142: `TestDaysSplitByWeeklyAtPoints.test_days_splitby_weekly_atpoints_3`. -/
example : passes (do
    let x1 ← Frame.new (⟨none, .D, by decide⟩ : Freq) (ts 2017 1 1) (ts 2017 1 16)
    let x2 ← x1.partitionWithMarker { first := 0, last := ((x1.n : Int) - 1), skipLeft := 0, skipRight := 0 } { each := (⟨none, .W none, by decide⟩ : Freq), ats := [fromStartOfEach (some { days := 2 }), fromStartOfEach (some { days := 5 })] }
    check 149 (decide ((x2.length : Int) = 5))
    let x3 ← item x2 0
    check 150 ((decide (x3.first = 0)) && (decide (x3.last = 2)) && (decide (x3.skipLeft = 1)) && (decide (x3.skipRight = 0)))
    let x4 ← item x2 1
    check 152 ((decide (x4.first = 3)) && (decide (x4.last = 5)) && (decide (x4.skipLeft = 0)) && (decide (x4.skipRight = 0)))
    let x5 ← item x2 2
    check 153 ((decide (x5.first = 6)) && (decide (x5.last = 9)) && (decide (x5.skipLeft = 0)) && (decide (x5.skipRight = 0)))
    let x6 ← item x2 3
    check 154 ((decide (x6.first = 10)) && (decide (x6.last = 12)) && (decide (x6.skipLeft = 0)) && (decide (x6.skipRight = 0)))
    let x7 ← item x2 4
    check 155 ((decide (x7.first = 13)) && (decide (x7.last = 15)) && (decide (x7.skipLeft = 0)) && (decide (x7.skipRight = 1)))
    pure ()) = true := by decide +kernel

/-- timeboard/tests/test_partitioning.py 158: `TestDaysSplitByWeeklyAtPoints.test_days_splitby_weekly_atpoints_partframe`. -/
example : passes (do
    let x1 ← Frame.new (⟨none, .D, by decide⟩ : Freq) (ts 2016 12 23) (ts 2017 1 25)
    let x2 ← x1.partitionWithMarker { first := 10, last := 23, skipLeft := 0, skipRight := 0 } { each := (⟨none, .W none, by decide⟩ : Freq), ats := [fromStartOfEach (some { days := 2 }), fromStartOfEach (some { days := 5 })] }
    check 162 (decide ((x2.length : Int) = 5))
    let x3 ← item x2 0
    check 163 ((decide (x3.first = 10)) && (decide (x3.last = 11)) && (decide (x3.skipLeft = 2)) && (decide (x3.skipRight = 0)))
    let x4 ← item x2 1
    check 165 ((decide (x4.first = 12)) && (decide (x4.last = 14)) && (decide (x4.skipLeft = 0)) && (decide (x4.skipRight = 0)))
    let x5 ← item x2 2
    check 166 ((decide (x5.first = 15)) && (decide (x5.last = 18)) && (decide (x5.skipLeft = 0)) && (decide (x5.skipRight = 0)))
    let x6 ← item x2 3
    check 167 ((decide (x6.first = 19)) && (decide (x6.last = 21)) && (decide (x6.skipLeft = 0)) && (decide (x6.skipRight = 0)))
    let x7 ← item x2 4
    check 168 ((decide (x7.first = 22)) && (decide (x7.last = 23)) && (decide (x7.skipLeft = 0)) && (decide (x7.skipRight = 2)))
    pure ()) = true := by decide +kernel

/-- timeboard/tests/test_partitioning.py 174: `TestDaysSplitByAtPointsCornerCases.test_days_splitby_weekly_atpoints_excessive1`. -/
example : passes (do
    let x1 ← Frame.new (⟨none, .D, by decide⟩ : Freq) (ts 2017 1 2) (ts 2017 1 15)
    let x2 ← x1.partitionWithMarker { first := 0, last := ((x1.n : Int) - 1), skipLeft := 0, skipRight := 0 } { each := (⟨none, .W none, by decide⟩ : Freq), ats := [fromStartOfEach (some { days := 2, hours := 10 }), fromStartOfEach (some { days := 5, hours := 15 })] }
    check 180 (decide ((x2.length : Int) = 5))
    let x3 ← item x2 0
    check 181 ((decide (x3.first = 0)) && (decide (x3.last = 1)) && (decide (x3.skipLeft = 2)) && (decide (x3.skipRight = 0)))
    let x4 ← item x2 1
    check 183 ((decide (x4.first = 2)) && (decide (x4.last = 4)) && (decide (x4.skipLeft = 0)) && (decide (x4.skipRight = 0)))
    let x5 ← item x2 2
    check 184 ((decide (x5.first = 5)) && (decide (x5.last = 8)) && (decide (x5.skipLeft = 0)) && (decide (x5.skipRight = 0)))
    let x6 ← item x2 3
    check 185 ((decide (x6.first = 9)) && (decide (x6.last = 11)) && (decide (x6.skipLeft = 0)) && (decide (x6.skipRight = 0)))
    let x7 ← item x2 4
    check 186 ((decide (x7.first = 12)) && (decide (x7.last = 13)) && (decide (x7.skipLeft = 0)) && (decide (x7.skipRight = 2)))
    pure ()) = true := by decide +kernel

/-- timeboard/tests/test_partitioning.py 189: `TestDaysSplitByAtPointsCornerCases.test_days_splitby_weekly_atpoints_excessive2`. -/
example : passes (do
    let x1 ← Frame.new (⟨none, .D, by decide⟩ : Freq) (ts 2017 1 2) (ts 2017 1 15)
    let x2 ← x1.partitionWithMarker { first := 0, last := ((x1.n : Int) - 1), skipLeft := 0, skipRight := 0 } { each := (⟨none, .W none, by decide⟩ : Freq), ats := [fromStartOfEach (some { days := 2, hours := 24 }), fromStartOfEach (some { days := 5, hours := 25 })] }
    check 197 (decide ((x2.length : Int) = 5))
    let x3 ← item x2 0
    check 198 ((decide (x3.first = 0)) && (decide (x3.last = 2)) && (decide (x3.skipLeft = 1)) && (decide (x3.skipRight = 0)))
    let x4 ← item x2 1
    check 200 ((decide (x4.first = 3)) && (decide (x4.last = 5)) && (decide (x4.skipLeft = 0)) && (decide (x4.skipRight = 0)))
    let x5 ← item x2 2
    check 201 ((decide (x5.first = 6)) && (decide (x5.last = 9)) && (decide (x5.skipLeft = 0)) && (decide (x5.skipRight = 0)))
    let x6 ← item x2 3
    check 202 ((decide (x6.first = 10)) && (decide (x6.last = 12)) && (decide (x6.skipLeft = 0)) && (decide (x6.skipRight = 0)))
    let x7 ← item x2 4
    check 203 ((decide (x7.first = 13)) && (decide (x7.last = 13)) && (decide (x7.skipLeft = 0)) && (decide (x7.skipRight = 3)))
    pure ()) = true := by decide +kernel

/-- timeboard/tests/test_partitioning.py 206: `TestDaysSplitByAtPointsCornerCases.test_days_splitby_weekly_atpoints_excessive3`. -/
example : passes (do
    let x1 ← Frame.new (⟨none, .D, by decide⟩ : Freq) (ts 2017 1 2) (ts 2017 1 15)
    let x2 ← x1.partitionWithMarker { first := 0, last := ((x1.n : Int) - 1), skipLeft := 0, skipRight := 0 } { each := (⟨none, .W none, by decide⟩ : Freq), ats := [fromStartOfEach (some { days := 7 })] }
    check 213 (decide ((x2.length : Int) = 1))
    let x3 ← item x2 0
    check 214 ((decide (x3.first = 0)) && (decide (x3.last = 13)) && (decide (x3.skipLeft = (-1))) && (decide (x3.skipRight = (-1))))
    pure ()) = true := by decide +kernel

/-- timeboard/tests/test_partitioning.py 216: `TestDaysSplitByAtPointsCornerCases.test_days_splitby_weekly_atpoints_excessive4`. -/
example : passes (do
    let x1 ← Frame.new (⟨none, .D, by decide⟩ : Freq) (ts 2017 1 2) (ts 2017 1 15)
    let x2 ← x1.partitionWithMarker { first := 0, last := ((x1.n : Int) - 1), skipLeft := 0, skipRight := 0 } { each := (⟨none, .W none, by decide⟩ : Freq), ats := [fromStartOfEach (some { days := 5 }), fromStartOfEach (some { days := 16 })] }
    check 223 (decide ((x2.length : Int) = 3))
    let x3 ← item x2 0
    check 224 ((decide (x3.first = 0)) && (decide (x3.last = 4)) && (decide (x3.skipLeft = 2)) && (decide (x3.skipRight = 0)))
    let x4 ← item x2 1
    check 225 ((decide (x4.first = 5)) && (decide (x4.last = 11)) && (decide (x4.skipLeft = 0)) && (decide (x4.skipRight = 0)))
    let x5 ← item x2 2
    check 226 ((decide (x5.first = 12)) && (decide (x5.last = 13)) && (decide (x5.skipLeft = 0)) && (decide (x5.skipRight = 5)))
    pure ()) = true := by decide +kernel

/-- timeboard/tests/test_partitioning.py 228: `TestDaysSplitByAtPointsCornerCases.test_days_splitby_weekly_atpoints_duplicates`. -/
example : passes (do
    let x1 ← Frame.new (⟨none, .D, by decide⟩ : Freq) (ts 2017 1 2) (ts 2017 1 15)
    let x2 ← x1.partitionWithMarker { first := 0, last := ((x1.n : Int) - 1), skipLeft := 0, skipRight := 0 } { each := (⟨none, .W none, by decide⟩ : Freq), ats := [fromStartOfEach (some { days := 2 }), fromStartOfEach (some { days := 2, hours := 4 }), fromStartOfEach (some { days := 5 }), fromStartOfEach (some { days := 4, hours := 25 })] }
    check 238 (decide ((x2.length : Int) = 5))
    let x3 ← item x2 0
    check 239 ((decide (x3.first = 0)) && (decide (x3.last = 1)) && (decide (x3.skipLeft = 2)) && (decide (x3.skipRight = 0)))
    let x4 ← item x2 1
    check 241 ((decide (x4.first = 2)) && (decide (x4.last = 4)) && (decide (x4.skipLeft = 0)) && (decide (x4.skipRight = 0)))
    let x5 ← item x2 2
    check 242 ((decide (x5.first = 5)) && (decide (x5.last = 8)) && (decide (x5.skipLeft = 0)) && (decide (x5.skipRight = 0)))
    let x6 ← item x2 3
    check 243 ((decide (x6.first = 9)) && (decide (x6.last = 11)) && (decide (x6.skipLeft = 0)) && (decide (x6.skipRight = 0)))
    let x7 ← item x2 4
    check 244 ((decide (x7.first = 12)) && (decide (x7.last = 13)) && (decide (x7.skipLeft = 0)) && (decide (x7.skipRight = 2)))
    pure ()) = true := by decide +kernel

/-- timeboard/tests/test_partitioning.py 247: `TestDaysSplitByAtPointsCornerCases.test_days_splitby_weekly_atpoints_onlyzero`. -/
example : passes (do
    let x1 ← Frame.new (⟨none, .D, by decide⟩ : Freq) (ts 2017 1 2) (ts 2017 1 15)
    let x2 ← x1.partitionWithMarker { first := 0, last := ((x1.n : Int) - 1), skipLeft := 0, skipRight := 0 } { each := (⟨none, .W none, by decide⟩ : Freq), ats := [fromStartOfEach (some { days := 0 })] }
    check 251 (decide ((x2.length : Int) = 2))
    let x3 ← item x2 0
    check 252 ((decide (x3.first = 0)) && (decide (x3.last = 6)) && (decide (x3.skipLeft = 0)) && (decide (x3.skipRight = 0)))
    let x4 ← item x2 1
    check 253 ((decide (x4.first = 7)) && (decide (x4.last = 13)) && (decide (x4.skipLeft = 0)) && (decide (x4.skipRight = 0)))
    pure ()) = true := by decide +kernel

/-- timeboard/tests/test_partitioning.py 255: `TestDaysSplitByAtPointsCornerCases.test_days_splitby_weekly_atpoints_negative`. -/
example : passes (do
    let x1 ← Frame.new (⟨none, .D, by decide⟩ : Freq) (ts 2017 1 2) (ts 2017 1 15)
    let x2 ← x1.partitionWithMarker { first := 0, last := ((x1.n : Int) - 1), skipLeft := 0, skipRight := 0 } { each := (⟨none, .W none, by decide⟩ : Freq), ats := [fromStartOfEach (some { days := -1 })] }
    check 261 (decide ((x2.length : Int) = 1))
    let x3 ← item x2 0
    check 262 ((decide (x3.first = 0)) && (decide (x3.last = 13)) && (decide (x3.skipLeft = (-1))) && (decide (x3.skipRight = (-1))))
    pure ()) = true := by decide +kernel

/-- timeboard/tests/test_partitioning.py 264: `TestDaysSplitByAtPointsCornerCases.test_days_splitby_weekly_atpoints_negative_compensated`. -/
example : passes (do
    let x1 ← Frame.new (⟨none, .D, by decide⟩ : Freq) (ts 2017 1 2) (ts 2017 1 15)
    let x2 ← x1.partitionWithMarker { first := 0, last := ((x1.n : Int) - 1), skipLeft := 0, skipRight := 0 } { each := (⟨none, .W none, by decide⟩ : Freq), ats := [fromStartOfEach (some { days := -1, hours := 72 })] }
    check 269 (decide ((x2.length : Int) = 3))
    let x3 ← item x2 0
    check 270 ((decide (x3.first = 0)) && (decide (x3.last = 1)) && (decide (x3.skipLeft = 5)) && (decide (x3.skipRight = 0)))
    let x4 ← item x2 1
    check 271 ((decide (x4.first = 2)) && (decide (x4.last = 8)) && (decide (x4.skipLeft = 0)) && (decide (x4.skipRight = 0)))
    let x5 ← item x2 2
    check 272 ((decide (x5.first = 9)) && (decide (x5.last = 13)) && (decide (x5.skipLeft = 0)) && (decide (x5.skipRight = 2)))
    pure ()) = true := by decide +kernel

/-- timeboard/tests/test_partitioning.py 304: `TestDaysSplitByMonthly.test_days_splitby_monthly_dangling`. -/
example : passes (do
    let x1 ← Frame.new (⟨none, .D, by decide⟩ : Freq) (ts 2016 12 31) (ts 2017 2 1)
    let x2 ← x1.partitionWithMarker { first := 0, last := ((x1.n : Int) - 1), skipLeft := 0, skipRight := 0 } { each := (⟨none, .M, by decide⟩ : Freq), ats := [] }
    check 307 (decide ((x2.length : Int) = 3))
    let x3 ← item x2 0
    check 308 ((decide (x3.first = 0)) && (decide (x3.last = 0)) && (decide (x3.skipLeft = 30)) && (decide (x3.skipRight = 0)))
    let x4 ← item x2 1
    check 309 ((decide (x4.first = 1)) && (decide (x4.last = 31)) && (decide (x4.skipLeft = 0)) && (decide (x4.skipRight = 0)))
    let x5 ← item x2 2
    check 310 ((decide (x5.first = 32)) && (decide (x5.last = 32)) && (decide (x5.skipLeft = 0)) && (decide (x5.skipRight = 27)))
    pure ()) = true := by decide +kernel

/-- timeboard/tests/test_partitioning.py 312: `TestDaysSplitByMonthly.test_days_splitby_monthly_atpoints`. -/
example : passes (do
    let x1 ← Frame.new (⟨none, .D, by decide⟩ : Freq) (ts 2016 12 31) (ts 2017 3 1)
    let x2 ← x1.partitionWithMarker { first := 0, last := ((x1.n : Int) - 1), skipLeft := 0, skipRight := 0 } { each := (⟨none, .M, by decide⟩ : Freq), ats := [fromStartOfEach (some { days := 9 }), fromStartOfEach (some { days := 19 })] }
    check 317 (decide ((x2.length : Int) = 5))
    let x3 ← item x2 0
    check 318 ((decide (x3.first = 0)) && (decide (x3.last = 9)) && (decide (x3.skipLeft = 11)) && (decide (x3.skipRight = 0)))
    let x4 ← item x2 1
    check 319 ((decide (x4.first = 10)) && (decide (x4.last = 19)) && (decide (x4.skipLeft = 0)) && (decide (x4.skipRight = 0)))
    let x5 ← item x2 2
    check 320 ((decide (x5.first = 20)) && (decide (x5.last = 40)) && (decide (x5.skipLeft = 0)) && (decide (x5.skipRight = 0)))
    let x6 ← item x2 3
    check 321 ((decide (x6.first = 41)) && (decide (x6.last = 50)) && (decide (x6.skipLeft = 0)) && (decide (x6.skipRight = 0)))
    let x7 ← item x2 4
    check 322 ((decide (x7.first = 51)) && (decide (x7.last = 60)) && (decide (x7.skipLeft = 0)) && (decide (x7.skipRight = 8)))
    pure ()) = true := by decide +kernel

/-- timeboard/tests/test_partitioning.py 324: `TestDaysSplitByMonthly.test_days_splitby_monthly_at_day30`. -/
example : passes (do
    let x1 ← Frame.new (⟨none, .D, by decide⟩ : Freq) (ts 2016 12 31) (ts 2017 3 1)
    let x2 ← x1.partitionWithMarker { first := 0, last := ((x1.n : Int) - 1), skipLeft := 0, skipRight := 0 } { each := (⟨none, .M, by decide⟩ : Freq), ats := [fromStartOfEach (some { days := 29 })] }
    check 329 (decide ((x2.length : Int) = 2))
    let x3 ← item x2 0
    check 330 ((decide (x3.first = 0)) && (decide (x3.last = 29)) && (decide (x3.skipLeft = 1)) && (decide (x3.skipRight = 0)))
    let x4 ← item x2 1
    check 331 ((decide (x4.first = 30)) && (decide (x4.last = 60)) && (decide (x4.skipLeft = 0)) && (decide (x4.skipRight = 28)))
    pure ()) = true := by decide +kernel

/-- timeboard/tests/test_partitioning.py 333: `TestDaysSplitByMonthly.test_days_splitby_monthly_at_weekdays`. -/
example : passes (do
    let x1 ← Frame.new (⟨none, .D, by decide⟩ : Freq) (ts 2016 12 31) (ts 2017 3 1)
    let x2 ← x1.partitionWithMarker { first := 0, last := ((x1.n : Int) - 1), skipLeft := 0, skipRight := 0 } { each := (⟨none, .M, by decide⟩ : Freq), ats := [nthWeekdayOfMonth 1 2 1 none, nthWeekdayOfMonth 1 (-1) 4 none] }
    check 345 (decide ((x2.length : Int) = 5))
    let x3 ← item x2 0
    check 346 ((decide (x3.first = 0)) && (decide (x3.last = 8)) && (decide (x3.skipLeft = 2)) && (decide (x3.skipRight = 0)))
    let x4 ← item x2 1
    check 347 ((decide (x4.first = 9)) && (decide (x4.last = 25)) && (decide (x4.skipLeft = 0)) && (decide (x4.skipRight = 0)))
    let x5 ← item x2 2
    check 348 ((decide (x5.first = 26)) && (decide (x5.last = 43)) && (decide (x5.skipLeft = 0)) && (decide (x5.skipRight = 0)))
    let x6 ← item x2 3
    check 349 ((decide (x6.first = 44)) && (decide (x6.last = 53)) && (decide (x6.skipLeft = 0)) && (decide (x6.skipRight = 0)))
    let x7 ← item x2 4
    check 350 ((decide (x7.first = 54)) && (decide (x7.last = 60)) && (decide (x7.skipLeft = 0)) && (decide (x7.skipRight = 11)))
    pure ()) = true := by decide +kernel

/-- timeboard/tests/test_partitioning.py 355: `TestDaysSplitByAnnually.test_days_splitby_annually_dangling`. -/
example : passes (do
    let x1 ← Frame.new (⟨none, .D, by decide⟩ : Freq) (ts 2016 12 31) (ts 2017 1 1)
    let x2 ← x1.partitionWithMarker { first := 0, last := ((x1.n : Int) - 1), skipLeft := 0, skipRight := 0 } { each := (⟨none, .A none, by decide⟩ : Freq), ats := [] }
    check 358 (decide ((x2.length : Int) = 2))
    let x3 ← item x2 0
    check 359 ((decide (x3.first = 0)) && (decide (x3.last = 0)) && (decide (x3.skipLeft = 365)) && (decide (x3.skipRight = 0)))
    let x4 ← item x2 1
    check 360 ((decide (x4.first = 1)) && (decide (x4.last = 1)) && (decide (x4.skipLeft = 0)) && (decide (x4.skipRight = 364)))
    pure ()) = true := by decide +kernel

/- timeboard/tests/test_partitioning.py 362: `TestDaysSplitByAnnually.test_days_splitby_annually_at_specific_date`. -/
#guard passes (do
    let x1 ← Frame.new (⟨none, .D, by decide⟩ : Freq) (ts 2015 1 1) (ts 2017 12 31)
    let x2 ← x1.partitionWithMarker { first := 0, last := ((x1.n : Int) - 1), skipLeft := 0, skipRight := 0 } { each := (⟨none, .A none, by decide⟩ : Freq), ats := [fromStartOfEach (some { months := 3, days := 10 })] }
    check 367 (decide ((x2.length : Int) = 4))
    let x3 ← item x2 0
    check 368 ((decide (x3.first = 0)) && (decide (x3.last = 99)) && (decide (x3.skipLeft = 265)) && (decide (x3.skipRight = 0)))
    let x4 ← item x2 1
    check 370 ((decide (x4.first = 100)) && (decide (x4.last = 465)) && (decide (x4.skipLeft = 0)) && (decide (x4.skipRight = 0)))
    let x5 ← item x2 2
    check 372 ((decide (x5.first = 466)) && (decide (x5.last = 830)) && (decide (x5.skipLeft = 0)) && (decide (x5.skipRight = 0)))
    let x6 ← item x2 3
    check 374 ((decide (x6.first = 831)) && (decide (x6.last = 1095)) && (decide (x6.skipLeft = 0)) && (decide (x6.skipRight = 100)))
    let x7 ← item x2 0
    let x8 ← framePeriod x1 x7.last
    check 376 (decide (x8.startTime = (ts 2015 4 10)))
    let x9 ← item x2 1
    let x10 ← framePeriod x1 x9.last
    check 377 (decide (x10.startTime = (ts 2016 4 10)))
    let x11 ← item x2 2
    let x12 ← framePeriod x1 x11.last
    check 378 (decide (x12.startTime = (ts 2017 4 10)))
    pure ())

/- timeboard/tests/test_partitioning.py 380: `TestDaysSplitByAnnually.test_days_splitby_annually_at_month_weekdays`. -/
#guard passes (do
    let x1 ← Frame.new (⟨none, .D, by decide⟩ : Freq) (ts 2015 1 1) (ts 2017 12 31)
    let x2 ← x1.partitionWithMarker { first := 0, last := ((x1.n : Int) - 1), skipLeft := 0, skipRight := 0 } { each := (⟨none, .A none, by decide⟩ : Freq), ats := [nthWeekdayOfMonth 5 (-1) 1 none, nthWeekdayOfMonth 9 1 1 none] }
    check 391 (decide ((x2.length : Int) = 7))
    let x3 ← item x2 0
    check 392 ((decide (x3.first = 0)) && (decide (x3.last = 143)) && (decide (x3.skipLeft = 122)) && (decide (x3.skipRight = 0)))
    let x4 ← item x2 1
    check 393 ((decide (x4.first = 144)) && (decide (x4.last = 248)) && (decide (x4.skipLeft = 0)) && (decide (x4.skipRight = 0)))
    let x5 ← item x2 2
    check 394 ((decide (x5.first = 249)) && (decide (x5.last = 514)) && (decide (x5.skipLeft = 0)) && (decide (x5.skipRight = 0)))
    let x6 ← item x2 3
    check 395 ((decide (x6.first = 515)) && (decide (x6.last = 612)) && (decide (x6.skipLeft = 0)) && (decide (x6.skipRight = 0)))
    let x7 ← item x2 4
    check 396 ((decide (x7.first = 613)) && (decide (x7.last = 878)) && (decide (x7.skipLeft = 0)) && (decide (x7.skipRight = 0)))
    let x8 ← item x2 5
    check 397 ((decide (x8.first = 879)) && (decide (x8.last = 976)) && (decide (x8.skipLeft = 0)) && (decide (x8.skipRight = 0)))
    let x9 ← item x2 6
    check 398 ((decide (x9.first = 977)) && (decide (x9.last = 1095)) && (decide (x9.skipLeft = 0)) && (decide (x9.skipRight = 147)))
    pure ())

/- timeboard/tests/test_partitioning.py 400: `TestDaysSplitByAnnually.test_days_splitby_annually_at_month_weekdays_shift`. -/
#guard passes (do
    let x1 ← Frame.new (⟨none, .D, by decide⟩ : Freq) (ts 2015 1 1) (ts 2017 12 31)
    let x2 ← x1.partitionWithMarker { first := 0, last := ((x1.n : Int) - 1), skipLeft := 0, skipRight := 0 } { each := (⟨none, .A none, by decide⟩ : Freq), ats := [nthWeekdayOfMonth 5 (-1) 1 (some 2), nthWeekdayOfMonth 9 1 1 (some (-4))] }
    check 414 (decide ((x2.length : Int) = 7))
    let x3 ← item x2 0
    check 415 ((decide (x3.first = 0)) && (decide (x3.last = 145)) && (decide (x3.skipLeft = 126)) && (decide (x3.skipRight = 0)))
    let x4 ← item x2 1
    check 416 ((decide (x4.first = 146)) && (decide (x4.last = 244)) && (decide (x4.skipLeft = 0)) && (decide (x4.skipRight = 0)))
    let x5 ← item x2 2
    check 417 ((decide (x5.first = 245)) && (decide (x5.last = 516)) && (decide (x5.skipLeft = 0)) && (decide (x5.skipRight = 0)))
    let x6 ← item x2 3
    check 418 ((decide (x6.first = 517)) && (decide (x6.last = 608)) && (decide (x6.skipLeft = 0)) && (decide (x6.skipRight = 0)))
    let x7 ← item x2 4
    check 419 ((decide (x7.first = 609)) && (decide (x7.last = 880)) && (decide (x7.skipLeft = 0)) && (decide (x7.skipRight = 0)))
    let x8 ← item x2 5
    check 420 ((decide (x8.first = 881)) && (decide (x8.last = 972)) && (decide (x8.skipLeft = 0)) && (decide (x8.skipRight = 0)))
    let x9 ← item x2 6
    check 421 ((decide (x9.first = 973)) && (decide (x9.last = 1095)) && (decide (x9.skipLeft = 0)) && (decide (x9.skipRight = 149)))
    pure ())

/- timeboard/tests/test_partitioning.py 423: `TestDaysSplitByAnnually.test_days_splitby_annually_at_easter_western`. -/
#guard passes (do
    let x1 ← Frame.new (⟨none, .D, by decide⟩ : Freq) (ts 2013 12 31) (ts 2017 1 1)
    let x2 ← x1.partitionWithMarker { first := 0, last := ((x1.n : Int) - 1), skipLeft := 0, skipRight := 0 } { each := (⟨none, .A none, by decide⟩ : Freq), ats := [fromEaster false none (some { days := -2 }), fromEaster false none (some { days := 0 }), fromEaster false none (some { days := 1 })] }
    check 433 (decide ((x2.length : Int) = 10))
    let x3 ← item x2 1
    let x4 ← framePeriod x1 x3.first
    let x5 ← framePeriod x1 x3.last
    check 434 (samePeriod x4 (Period.ofTime (⟨none, .D, by decide⟩ : Freq) (ts 2014 4 18)))
    let x6 ← item x2 2
    let x7 ← framePeriod x1 x6.first
    let x8 ← framePeriod x1 x6.last
    check 435 (samePeriod x7 (Period.ofTime (⟨none, .D, by decide⟩ : Freq) (ts 2014 4 20)))
    let x9 ← item x2 3
    let x10 ← framePeriod x1 x9.first
    let x11 ← framePeriod x1 x9.last
    check 436 (samePeriod x10 (Period.ofTime (⟨none, .D, by decide⟩ : Freq) (ts 2014 4 21)))
    let x12 ← item x2 4
    let x13 ← framePeriod x1 x12.first
    let x14 ← framePeriod x1 x12.last
    check 437 (samePeriod x13 (Period.ofTime (⟨none, .D, by decide⟩ : Freq) (ts 2015 4 3)))
    let x15 ← item x2 5
    let x16 ← framePeriod x1 x15.first
    let x17 ← framePeriod x1 x15.last
    check 438 (samePeriod x16 (Period.ofTime (⟨none, .D, by decide⟩ : Freq) (ts 2015 4 5)))
    let x18 ← item x2 6
    let x19 ← framePeriod x1 x18.first
    let x20 ← framePeriod x1 x18.last
    check 439 (samePeriod x19 (Period.ofTime (⟨none, .D, by decide⟩ : Freq) (ts 2015 4 6)))
    let x21 ← item x2 7
    let x22 ← framePeriod x1 x21.first
    let x23 ← framePeriod x1 x21.last
    check 440 (samePeriod x22 (Period.ofTime (⟨none, .D, by decide⟩ : Freq) (ts 2016 3 25)))
    let x24 ← item x2 8
    let x25 ← framePeriod x1 x24.first
    let x26 ← framePeriod x1 x24.last
    check 441 (samePeriod x25 (Period.ofTime (⟨none, .D, by decide⟩ : Freq) (ts 2016 3 27)))
    let x27 ← item x2 9
    let x28 ← framePeriod x1 x27.first
    let x29 ← framePeriod x1 x27.last
    check 442 (samePeriod x28 (Period.ofTime (⟨none, .D, by decide⟩ : Freq) (ts 2016 3 28)))
    pure ())

/- timeboard/tests/test_partitioning.py 444: `TestDaysSplitByAnnually.test_days_splitby_annually_at_easter_orthodox`. -/
#guard passes (do
    let x1 ← Frame.new (⟨none, .D, by decide⟩ : Freq) (ts 2013 12 31) (ts 2017 1 1)
    let x2 ← x1.partitionWithMarker { first := 0, last := ((x1.n : Int) - 1), skipLeft := 0, skipRight := 0 } { each := (⟨none, .A none, by decide⟩ : Freq), ats := [fromEaster true none (some { days := -2 }), fromEaster true none (some { days := 0 }), fromEaster true none (some { days := 1 })] }
    check 454 (decide ((x2.length : Int) = 10))
    let x3 ← item x2 1
    let x4 ← framePeriod x1 x3.first
    let x5 ← framePeriod x1 x3.last
    check 455 (samePeriod x4 (Period.ofTime (⟨none, .D, by decide⟩ : Freq) (ts 2014 4 18)))
    let x6 ← item x2 2
    let x7 ← framePeriod x1 x6.first
    let x8 ← framePeriod x1 x6.last
    check 456 (samePeriod x7 (Period.ofTime (⟨none, .D, by decide⟩ : Freq) (ts 2014 4 20)))
    let x9 ← item x2 3
    let x10 ← framePeriod x1 x9.first
    let x11 ← framePeriod x1 x9.last
    check 457 (samePeriod x10 (Period.ofTime (⟨none, .D, by decide⟩ : Freq) (ts 2014 4 21)))
    let x12 ← item x2 4
    let x13 ← framePeriod x1 x12.first
    let x14 ← framePeriod x1 x12.last
    check 458 (samePeriod x13 (Period.ofTime (⟨none, .D, by decide⟩ : Freq) (ts 2015 4 10)))
    let x15 ← item x2 5
    let x16 ← framePeriod x1 x15.first
    let x17 ← framePeriod x1 x15.last
    check 459 (samePeriod x16 (Period.ofTime (⟨none, .D, by decide⟩ : Freq) (ts 2015 4 12)))
    let x18 ← item x2 6
    let x19 ← framePeriod x1 x18.first
    let x20 ← framePeriod x1 x18.last
    check 460 (samePeriod x19 (Period.ofTime (⟨none, .D, by decide⟩ : Freq) (ts 2015 4 13)))
    let x21 ← item x2 7
    let x22 ← framePeriod x1 x21.first
    let x23 ← framePeriod x1 x21.last
    check 461 (samePeriod x22 (Period.ofTime (⟨none, .D, by decide⟩ : Freq) (ts 2016 4 29)))
    let x24 ← item x2 8
    let x25 ← framePeriod x1 x24.first
    let x26 ← framePeriod x1 x24.last
    check 462 (samePeriod x25 (Period.ofTime (⟨none, .D, by decide⟩ : Freq) (ts 2016 5 1)))
    let x27 ← item x2 9
    let x28 ← framePeriod x1 x27.first
    let x29 ← framePeriod x1 x27.last
    check 463 (samePeriod x28 (Period.ofTime (⟨none, .D, by decide⟩ : Freq) (ts 2016 5 2)))
    pure ())

/-- timeboard/tests/test_partitioning.py 467: `TestDaysSplitByAtWeekdaysCornerCases.test_days_splitby_monthly_at_weekdays_outside`. -/
example : passes (do
    let x1 ← Frame.new (⟨none, .D, by decide⟩ : Freq) (ts 2016 12 31) (ts 2017 3 1)
    let x2 ← x1.partitionWithMarker { first := 0, last := ((x1.n : Int) - 1), skipLeft := 0, skipRight := 0 } { each := (⟨none, .M, by decide⟩ : Freq), ats := [nthWeekdayOfMonth 2 2 1 none] }
    check 476 (decide ((x2.length : Int) = 1))
    let x3 ← item x2 0
    check 477 ((decide (x3.first = 0)) && (decide (x3.last = 60)) && (decide (x3.skipLeft = (-1))) && (decide (x3.skipRight = (-1))))
    pure ()) = true := by decide +kernel

/-- timeboard/tests/test_partitioning.py 479: `TestDaysSplitByAtWeekdaysCornerCases.test_days_splitby_monthly_at_weekdays_gaps`. -/
example : passes (do
    let x1 ← Frame.new (⟨none, .D, by decide⟩ : Freq) (ts 2017 1 1) (ts 2017 3 1)
    let x2 ← x1.partitionWithMarker { first := 0, last := ((x1.n : Int) - 1), skipLeft := 0, skipRight := 0 } { each := (⟨none, .M, by decide⟩ : Freq), ats := [nthWeekdayOfMonth 1 5 2 none] }
    check 489 (decide ((x2.length : Int) = 2))
    let x3 ← item x2 0
    check 490 ((decide (x3.first = 0)) && (decide (x3.last = 29)) && (decide (x3.skipLeft = (-1))) && (decide (x3.skipRight = 0)))
    let x4 ← item x2 1
    check 491 ((decide (x4.first = 30)) && (decide (x4.last = 59)) && (decide (x4.skipLeft = 0)) && (decide (x4.skipRight = (-1))))
    pure ()) = true := by decide +kernel

/-- timeboard/tests/test_partitioning.py 493: `TestDaysSplitByAtWeekdaysCornerCases.test_days_splitby_monthly_at_weekdays_gaps2`. -/
example : passes (do
    let x1 ← Frame.new (⟨none, .D, by decide⟩ : Freq) (ts 2016 12 31) (ts 2017 3 1)
    let x2 ← x1.partitionWithMarker { first := 0, last := ((x1.n : Int) - 1), skipLeft := 0, skipRight := 0 } { each := (⟨none, .M, by decide⟩ : Freq), ats := [nthWeekdayOfMonth 1 5 2 none] }
    check 502 (decide ((x2.length : Int) = 2))
    let x3 ← item x2 0
    check 503 ((decide (x3.first = 0)) && (decide (x3.last = 30)) && (decide (x3.skipLeft = 32)) && (decide (x3.skipRight = 0)))
    let x4 ← item x2 1
    check 504 ((decide (x4.first = 31)) && (decide (x4.last = 60)) && (decide (x4.skipLeft = 0)) && (decide (x4.skipRight = (-1))))
    pure ()) = true := by decide +kernel

/-- timeboard/tests/test_partitioning.py 506: `TestDaysSplitByAtWeekdaysCornerCases.test_days_splitby_monthly_at_weekdays_gaps3`. -/
example : passes (do
    let x1 ← Frame.new (⟨none, .D, by decide⟩ : Freq) (ts 2016 12 31) (ts 2017 3 1)
    let x2 ← x1.partitionWithMarker { first := 0, last := ((x1.n : Int) - 1), skipLeft := 0, skipRight := 0 } { each := (⟨none, .A none, by decide⟩ : Freq), ats := [nthWeekdayOfMonth 1 5 2 none] }
    check 518 (decide ((x2.length : Int) = 2))
    let x3 ← item x2 0
    check 519 ((decide (x3.first = 0)) && (decide (x3.last = 30)) && (decide (x3.skipLeft = (-1))) && (decide (x3.skipRight = 0)))
    let x4 ← item x2 1
    check 520 ((decide (x4.first = 31)) && (decide (x4.last = 60)) && (decide (x4.skipLeft = 0)) && (decide (x4.skipRight = 334)))
    pure ()) = true := by decide +kernel

/-- timeboard/tests/test_partitioning.py 522: `TestDaysSplitByAtWeekdaysCornerCases.test_days_splitby_monthly_at_weekdays_gaps3n`. -/
example : passes (do
    let x1 ← Frame.new (⟨none, .D, by decide⟩ : Freq) (ts 2016 12 31) (ts 2017 3 1)
    let x2 ← x1.partitionWithMarker { first := 0, last := ((x1.n : Int) - 1), skipLeft := 0, skipRight := 0 } { each := (⟨none, .A none, by decide⟩ : Freq), ats := [nthWeekdayOfMonth 1 (-5) 2 none] }
    check 535 (decide ((x2.length : Int) = 2))
    let x3 ← item x2 0
    check 536 ((decide (x3.first = 0)) && (decide (x3.last = 2)) && (decide (x3.skipLeft = (-1))) && (decide (x3.skipRight = 0)))
    let x4 ← item x2 1
    check 537 ((decide (x4.first = 3)) && (decide (x4.last = 60)) && (decide (x4.skipLeft = 0)) && (decide (x4.skipRight = 306)))
    pure ()) = true := by decide +kernel

/-- timeboard/tests/test_partitioning.py 540: `TestDaysSplitByAtWeekdaysCornerCases.test_days_splitby_monthly_at_weekdays_gaps4`. -/
example : passes (do
    let x1 ← Frame.new (⟨none, .D, by decide⟩ : Freq) (ts 2016 12 31) (ts 2017 3 1)
    let x2 ← x1.partitionWithMarker { first := 0, last := ((x1.n : Int) - 1), skipLeft := 0, skipRight := 0 } { each := (⟨none, .A none, by decide⟩ : Freq), ats := [nthWeekdayOfMonth 1 5 7 none] }
    check 552 (decide ((x2.length : Int) = 2))
    let x3 ← item x2 0
    check 553 ((decide (x3.first = 0)) && (decide (x3.last = 28)) && (decide (x3.skipLeft = 335)) && (decide (x3.skipRight = 0)))
    let x4 ← item x2 1
    check 554 ((decide (x4.first = 29)) && (decide (x4.last = 60)) && (decide (x4.skipLeft = 0)) && (decide (x4.skipRight = (-1))))
    pure ()) = true := by decide +kernel

/-- timeboard/tests/test_partitioning.py 556: `TestDaysSplitByAtWeekdaysCornerCases.test_days_splitby_monthly_at_weekdays_gaps4n`. -/
example : passes (do
    let x1 ← Frame.new (⟨none, .D, by decide⟩ : Freq) (ts 2016 12 31) (ts 2017 3 1)
    let x2 ← x1.partitionWithMarker { first := 0, last := ((x1.n : Int) - 1), skipLeft := 0, skipRight := 0 } { each := (⟨none, .A none, by decide⟩ : Freq), ats := [nthWeekdayOfMonth 1 (-5) 7 none] }
    check 569 (decide ((x2.length : Int) = 2))
    let x3 ← item x2 0
    check 570 ((decide (x3.first = 0)) && (decide (x3.last = 0)) && (decide (x3.skipLeft = 363)) && (decide (x3.skipRight = 0)))
    let x4 ← item x2 1
    check 571 ((decide (x4.first = 1)) && (decide (x4.last = 60)) && (decide (x4.skipLeft = 0)) && (decide (x4.skipRight = (-1))))
    pure ()) = true := by decide +kernel

/-- timeboard/tests/test_partitioning.py 573: `TestDaysSplitByAtWeekdaysCornerCases.test_days_splitby_monthly_at_weekdays_bad_args`. Left out (arguments which the model cannot express): lines 576, 576, 583, 590, 590. -/
example : passes (do
    let x1 ← Frame.new (⟨none, .D, by decide⟩ : Freq) (ts 2016 12 31) (ts 2017 3 1)
    raises 576 [.assertionError] (do
      let x2 ← x1.partitionWithMarker { first := 0, last := ((x1.n : Int) - 1), skipLeft := 0, skipRight := 0 } { each := (⟨none, .A none, by decide⟩ : Freq), ats := [nthWeekdayOfMonth (-1) 1 7 none] }
      pure ())
    raises 576 [.assertionError] (do
      let x3 ← x1.partitionWithMarker { first := 0, last := ((x1.n : Int) - 1), skipLeft := 0, skipRight := 0 } { each := (⟨none, .A none, by decide⟩ : Freq), ats := [nthWeekdayOfMonth 0 1 7 none] }
      pure ())
    raises 576 [.assertionError] (do
      let x4 ← x1.partitionWithMarker { first := 0, last := ((x1.n : Int) - 1), skipLeft := 0, skipRight := 0 } { each := (⟨none, .A none, by decide⟩ : Freq), ats := [nthWeekdayOfMonth 13 1 7 none] }
      pure ())
    raises 583 [.assertionError] (do
      let x5 ← x1.partitionWithMarker { first := 0, last := ((x1.n : Int) - 1), skipLeft := 0, skipRight := 0 } { each := (⟨none, .A none, by decide⟩ : Freq), ats := [nthWeekdayOfMonth 1 (-6) 7 none] }
      pure ())
    raises 583 [.assertionError] (do
      let x6 ← x1.partitionWithMarker { first := 0, last := ((x1.n : Int) - 1), skipLeft := 0, skipRight := 0 } { each := (⟨none, .A none, by decide⟩ : Freq), ats := [nthWeekdayOfMonth 1 0 7 none] }
      pure ())
    raises 583 [.assertionError] (do
      let x7 ← x1.partitionWithMarker { first := 0, last := ((x1.n : Int) - 1), skipLeft := 0, skipRight := 0 } { each := (⟨none, .A none, by decide⟩ : Freq), ats := [nthWeekdayOfMonth 1 6 7 none] }
      pure ())
    raises 590 [.assertionError] (do
      let x8 ← x1.partitionWithMarker { first := 0, last := ((x1.n : Int) - 1), skipLeft := 0, skipRight := 0 } { each := (⟨none, .A none, by decide⟩ : Freq), ats := [nthWeekdayOfMonth 1 1 (-1) none] }
      pure ())
    raises 590 [.assertionError] (do
      let x9 ← x1.partitionWithMarker { first := 0, last := ((x1.n : Int) - 1), skipLeft := 0, skipRight := 0 } { each := (⟨none, .A none, by decide⟩ : Freq), ats := [nthWeekdayOfMonth 1 1 0 none] }
      pure ())
    raises 590 [.assertionError] (do
      let x10 ← x1.partitionWithMarker { first := 0, last := ((x1.n : Int) - 1), skipLeft := 0, skipRight := 0 } { each := (⟨none, .A none, by decide⟩ : Freq), ats := [nthWeekdayOfMonth 1 1 8 none] }
      pure ())
    pure ()) = true := by decide +kernel

/-- timeboard/tests/test_partitioning.py 599: `TestHoursSplitBy.test_hours_splitby_weekly_aligned`. -/
example : passes (do
    let x1 ← Frame.new (⟨none, .H, by decide⟩ : Freq) (ts 2017 1 2) (ts 2017 1 15 23 30)
    let x2 ← x1.partitionWithMarker { first := 0, last := ((x1.n : Int) - 1), skipLeft := 0, skipRight := 0 } { each := (⟨none, .W none, by decide⟩ : Freq), ats := [] }
    check 603 (decide ((x2.length : Int) = 2))
    let x3 ← item x2 0
    check 604 ((decide (x3.first = 0)) && (decide (x3.last = 167)) && (decide (x3.skipLeft = 0)) && (decide (x3.skipRight = 0)))
    let x4 ← item x2 1
    check 605 ((decide (x4.first = 168)) && (decide (x4.last = 335)) && (decide (x4.skipLeft = 0)) && (decide (x4.skipRight = 0)))
    pure ()) = true := by decide +kernel

/-- timeboard/tests/test_partitioning.py 607: `TestHoursSplitBy.test_hours_splitby_weekly_dangling`. -/
example : passes (do
    let x1 ← Frame.new (⟨none, .H, by decide⟩ : Freq) (ts 2017 1 3 1) (ts 2017 1 15 22 30)
    let x2 ← x1.partitionWithMarker { first := 0, last := ((x1.n : Int) - 1), skipLeft := 0, skipRight := 0 } { each := (⟨none, .W none, by decide⟩ : Freq), ats := [] }
    check 611 (decide ((x2.length : Int) = 2))
    let x3 ← item x2 0
    check 612 ((decide (x3.first = 0)) && (decide (x3.last = 142)) && (decide (x3.skipLeft = 25)) && (decide (x3.skipRight = 0)))
    let x4 ← item x2 1
    check 613 ((decide (x4.first = 143)) && (decide (x4.last = 309)) && (decide (x4.skipLeft = 0)) && (decide (x4.skipRight = 1)))
    pure ()) = true := by decide +kernel

/-- timeboard/tests/test_partitioning.py 615: `TestHoursSplitBy.test_hours_splitby_weekly_dangling_span_short`. -/
example : passes (do
    let x1 ← Frame.new (⟨none, .H, by decide⟩ : Freq) (ts 2017 1 3 1) (ts 2017 1 15 22 30)
    let x2 ← x1.partitionWithMarker { first := 145, last := ((x1.n : Int) - 3), skipLeft := 0, skipRight := 0 } { each := (⟨none, .W none, by decide⟩ : Freq), ats := [] }
    check 620 (decide ((x2.length : Int) = 1))
    let x3 ← item x2 0
    check 621 ((decide (x3.first = 145)) && (decide (x3.last = ((x1.n : Int) - 3))) && (decide (x3.skipLeft = 2)) && (decide (x3.skipRight = 3)))
    pure ()) = true := by decide +kernel

/-- timeboard/tests/test_partitioning.py 623: `TestHoursSplitBy.test_hours_splitby_daily_at_specific_hours`. -/
example : passes (do
    let x1 ← Frame.new (⟨none, .H, by decide⟩ : Freq) (ts 2017 1 1) (ts 2017 1 2 23 59)
    let x2 ← x1.partitionWithMarker { first := 0, last := ((x1.n : Int) - 1), skipLeft := 0, skipRight := 0 } { each := (⟨none, .D, by decide⟩ : Freq), ats := [fromStartOfEach (some { hours := 8 }), fromStartOfEach (some { hours := 18 })] }
    check 628 (decide ((x2.length : Int) = 5))
    let x3 ← item x2 0
    check 629 ((decide (x3.first = 0)) && (decide (x3.last = 7)) && (decide (x3.skipLeft = 6)) && (decide (x3.skipRight = 0)))
    let x4 ← item x2 1
    check 630 ((decide (x4.first = 8)) && (decide (x4.last = 17)) && (decide (x4.skipLeft = 0)) && (decide (x4.skipRight = 0)))
    let x5 ← item x2 2
    check 631 ((decide (x5.first = 18)) && (decide (x5.last = 31)) && (decide (x5.skipLeft = 0)) && (decide (x5.skipRight = 0)))
    let x6 ← item x2 3
    check 632 ((decide (x6.first = 32)) && (decide (x6.last = 41)) && (decide (x6.skipLeft = 0)) && (decide (x6.skipRight = 0)))
    let x7 ← item x2 4
    check 633 ((decide (x7.first = 42)) && (decide (x7.last = 47)) && (decide (x7.skipLeft = 0)) && (decide (x7.skipRight = 8)))
    pure ()) = true := by decide +kernel

/-- timeboard/tests/test_partitioning.py 638: `TestWeeksSplitBy.test_weeks_splitby_months`. -/
example : passes (do
    let x1 ← Frame.new (⟨none, .W none, by decide⟩ : Freq) (ts 2017 1 1) (ts 2017 3 1)
    raises 640 [.unacceptablePeriod] (do
      let x2 ← x1.partitionWithMarker { first := 0, last := ((x1.n : Int) - 1), skipLeft := 0, skipRight := 0 } { each := (⟨none, .M, by decide⟩ : Freq), ats := [] }
      pure ())
    pure ()) = true := by decide +kernel

/-- timeboard/tests/test_partitioning.py 643: `TestWeeksSplitBy.test_weeks_splitby_years`. -/
example : passes (do
    let x1 ← Frame.new (⟨none, .W none, by decide⟩ : Freq) (ts 2016 12 31) (ts 2017 3 1)
    raises 645 [.unacceptablePeriod] (do
      let x2 ← x1.partitionWithMarker { first := 0, last := ((x1.n : Int) - 1), skipLeft := 0, skipRight := 0 } { each := (⟨none, .A none, by decide⟩ : Freq), ats := [] }
      pure ())
    pure ()) = true := by decide +kernel

/-- timeboard/tests/test_partitioning.py 651: `TestMonthSplitBy.test_months_splitby_years`. -/
example : passes (do
    let x1 ← Frame.new (⟨none, .M, by decide⟩ : Freq) (ts 2016 12 31) (ts 2017 3 1)
    let x2 ← x1.partitionWithMarker { first := 0, last := ((x1.n : Int) - 1), skipLeft := 0, skipRight := 0 } { each := (⟨none, .A none, by decide⟩ : Freq), ats := [] }
    check 654 (decide ((x2.length : Int) = 2))
    let x3 ← item x2 0
    check 655 ((decide (x3.first = 0)) && (decide (x3.last = 0)) && (decide (x3.skipLeft = 11)) && (decide (x3.skipRight = 0)))
    let x4 ← item x2 1
    check 656 ((decide (x4.first = 1)) && (decide (x4.last = 3)) && (decide (x4.skipLeft = 0)) && (decide (x4.skipRight = 9)))
    pure ()) = true := by decide +kernel

/-- timeboard/tests/test_partitioning.py 658: `TestMonthSplitBy.test_months_splitby_years_short`. -/
example : passes (do
    let x1 ← Frame.new (⟨none, .M, by decide⟩ : Freq) (ts 2017 2 1) (ts 2017 3 1)
    let x2 ← x1.partitionWithMarker { first := 0, last := ((x1.n : Int) - 1), skipLeft := 0, skipRight := 0 } { each := (⟨none, .A none, by decide⟩ : Freq), ats := [] }
    check 661 (decide ((x2.length : Int) = 1))
    let x3 ← item x2 0
    check 662 ((decide (x3.first = 0)) && (decide (x3.last = 1)) && (decide (x3.skipLeft = 1)) && (decide (x3.skipRight = 9)))
    pure ()) = true := by decide +kernel

/-- timeboard/tests/test_partitioning.py 664: `TestMonthSplitBy.test_months_splitby_years_shifted`. -/
example : passes (do
    let x1 ← Frame.new (⟨none, .M, by decide⟩ : Freq) (ts 2016 12 31) (ts 2017 3 1)
    let x2 ← x1.partitionWithMarker { first := 0, last := ((x1.n : Int) - 1), skipLeft := 0, skipRight := 0 } { each := (⟨none, .A (some 0), by decide⟩ : Freq), ats := [] }
    check 667 (decide ((x2.length : Int) = 2))
    let x3 ← item x2 0
    check 668 ((decide (x3.first = 0)) && (decide (x3.last = 1)) && (decide (x3.skipLeft = 10)) && (decide (x3.skipRight = 0)))
    let x4 ← item x2 1
    check 669 ((decide (x4.first = 2)) && (decide (x4.last = 3)) && (decide (x4.skipLeft = 0)) && (decide (x4.skipRight = 10)))
    pure ()) = true := by decide +kernel

/-- timeboard/tests/test_partitioning.py 685: `TestMultipliedFreqSplitBy.test_4D_splitby_weeks`. -/
example : passes (do
    let x1 ← Frame.new (⟨some 4, .D, by decide⟩ : Freq) (ts 2017 1 1) (ts 2017 1 19)
    raises 687 [.unacceptablePeriod] (do
      let x2 ← x1.partitionWithMarker { first := 0, last := ((x1.n : Int) - 1), skipLeft := 0, skipRight := 0 } { each := (⟨none, .W none, by decide⟩ : Freq), ats := [] }
      pure ())
    pure ()) = true := by decide +kernel

/-- timeboard/tests/test_partitioning.py 690: `TestMultipliedFreqSplitBy.test_4D_splitby_months`. -/
example : passes (do
    let x1 ← Frame.new (⟨some 4, .D, by decide⟩ : Freq) (ts 2017 1 1) (ts 2017 1 19)
    raises 692 [.unacceptablePeriod] (do
      let x2 ← x1.partitionWithMarker { first := 0, last := ((x1.n : Int) - 1), skipLeft := 0, skipRight := 0 } { each := (⟨none, .M, by decide⟩ : Freq), ats := [] }
      pure ())
    pure ()) = true := by decide +kernel

/-- timeboard/tests/test_partitioning.py 695: `TestMultipliedFreqSplitBy.test_4D_splitby_8D`. -/
example : passes (do
    let x1 ← Frame.new (⟨some 4, .D, by decide⟩ : Freq) (ts 2017 1 1) (ts 2017 1 19)
    let x2 ← x1.partitionWithMarker { first := 0, last := ((x1.n : Int) - 1), skipLeft := 0, skipRight := 0 } { each := (⟨some 8, .D, by decide⟩ : Freq), ats := [] }
    check 698 (decide ((x2.length : Int) = 3))
    let x3 ← item x2 0
    check 699 ((decide (x3.first = 0)) && (decide (x3.last = 1)) && (decide (x3.skipLeft = 0)) && (decide (x3.skipRight = 0)))
    let x4 ← item x2 1
    check 700 ((decide (x4.first = 2)) && (decide (x4.last = 3)) && (decide (x4.skipLeft = 0)) && (decide (x4.skipRight = 0)))
    let x5 ← item x2 2
    check 701 ((decide (x5.first = 4)) && (decide (x5.last = 4)) && (decide (x5.skipLeft = 0)) && (decide (x5.skipRight = 1)))
    pure ()) = true := by decide +kernel

/-- timeboard/tests/test_partitioning.py 703: `TestMultipliedFreqSplitBy.test_4D_splitby_8D_span_aligned`. -/
example : passes (do
    let x1 ← Frame.new (⟨some 4, .D, by decide⟩ : Freq) (ts 2017 1 1) (ts 2017 1 19)
    let x2 ← x1.partitionWithMarker { first := 1, last := 4, skipLeft := 0, skipRight := 0 } { each := (⟨some 8, .D, by decide⟩ : Freq), ats := [] }
    check 706 (decide ((x2.length : Int) = 2))
    let x3 ← item x2 0
    check 707 ((decide (x3.first = 1)) && (decide (x3.last = 2)) && (decide (x3.skipLeft = 0)) && (decide (x3.skipRight = 0)))
    let x4 ← item x2 1
    check 708 ((decide (x4.first = 3)) && (decide (x4.last = 4)) && (decide (x4.skipLeft = 0)) && (decide (x4.skipRight = 0)))
    pure ()) = true := by decide +kernel

/-- timeboard/tests/test_partitioning.py 710: `TestMultipliedFreqSplitBy.test_4D_splitby_8D_span_dangling`. -/
example : passes (do
    let x1 ← Frame.new (⟨some 4, .D, by decide⟩ : Freq) (ts 2017 1 1) (ts 2017 1 19)
    let x2 ← x1.partitionWithMarker { first := 1, last := 3, skipLeft := 0, skipRight := 0 } { each := (⟨some 8, .D, by decide⟩ : Freq), ats := [] }
    check 713 (decide ((x2.length : Int) = 2))
    let x3 ← item x2 0
    check 714 ((decide (x3.first = 1)) && (decide (x3.last = 2)) && (decide (x3.skipLeft = 0)) && (decide (x3.skipRight = 0)))
    let x4 ← item x2 1
    check 715 ((decide (x4.first = 3)) && (decide (x4.last = 3)) && (decide (x4.skipLeft = 0)) && (decide (x4.skipRight = 1)))
    pure ()) = true := by decide +kernel

/-- timeboard/tests/test_partitioning.py 717: `TestMultipliedFreqSplitBy.test_weeks_splitby_multiple_weeks`. -/
example : passes (do
    let x1 ← Frame.new (⟨none, .W none, by decide⟩ : Freq) (ts 2017 1 2) (ts 2017 1 29)
    let x2 ← x1.partitionWithMarker { first := 0, last := ((x1.n : Int) - 1), skipLeft := 0, skipRight := 0 } { each := (⟨some 2, .W none, by decide⟩ : Freq), ats := [] }
    check 720 (decide ((x2.length : Int) = 2))
    let x3 ← item x2 0
    check 721 ((decide (x3.first = 0)) && (decide (x3.last = 1)) && (decide (x3.skipLeft = 0)) && (decide (x3.skipRight = 0)))
    let x4 ← item x2 1
    check 722 ((decide (x4.first = 2)) && (decide (x4.last = 3)) && (decide (x4.skipLeft = 0)) && (decide (x4.skipRight = 0)))
    pure ()) = true := by decide +kernel

/-- timeboard/tests/test_partitioning.py 724: `TestMultipliedFreqSplitBy.test_weeks_splitby_multiple_weeks_dangling`. -/
example : passes (do
    let x1 ← Frame.new (⟨none, .W none, by decide⟩ : Freq) (ts 2017 1 2) (ts 2017 1 30)
    let x2 ← x1.partitionWithMarker { first := 0, last := ((x1.n : Int) - 1), skipLeft := 0, skipRight := 0 } { each := (⟨some 2, .W none, by decide⟩ : Freq), ats := [] }
    check 727 (decide ((x2.length : Int) = 3))
    let x3 ← item x2 0
    check 728 ((decide (x3.first = 0)) && (decide (x3.last = 1)) && (decide (x3.skipLeft = 0)) && (decide (x3.skipRight = 0)))
    let x4 ← item x2 1
    check 729 ((decide (x4.first = 2)) && (decide (x4.last = 3)) && (decide (x4.skipLeft = 0)) && (decide (x4.skipRight = 0)))
    let x5 ← item x2 2
    check 730 ((decide (x5.first = 4)) && (decide (x5.last = 4)) && (decide (x5.skipLeft = 0)) && (decide (x5.skipRight = 1)))
    pure ()) = true := by decide +kernel

/-- timeboard/tests/test_partitioning.py 732: `TestMultipliedFreqSplitBy.test_splitby_different_multiple_freqs1`. -/
example : passes (do
    let x1 ← Frame.new (⟨none, .D, by decide⟩ : Freq) (ts 2016 12 31) (ts 2017 1 30)
    let x2 ← x1.partitionWithMarker { first := 0, last := ((x1.n : Int) - 1), skipLeft := 0, skipRight := 0 } { each := (⟨some 2, .W none, by decide⟩ : Freq), ats := [] }
    check 735 (decide ((x2.length : Int) = 3))
    let x3 ← item x2 0
    check 736 ((decide (x3.first = 0)) && (decide (x3.last = 8)) && (decide (x3.skipLeft = 5)) && (decide (x3.skipRight = 0)))
    let x4 ← item x2 1
    check 737 ((decide (x4.first = 9)) && (decide (x4.last = 22)) && (decide (x4.skipLeft = 0)) && (decide (x4.skipRight = 0)))
    let x5 ← item x2 2
    check 738 ((decide (x5.first = 23)) && (decide (x5.last = 30)) && (decide (x5.skipLeft = 0)) && (decide (x5.skipRight = 6)))
    pure ()) = true := by decide +kernel

/-- timeboard/tests/test_partitioning.py 750: `TestMultipliedFreqSplitBy.test_splitby_different_multiple_freqs2b`. -/
example : passes (do
    let x1 ← Frame.new (⟨some 12, .H, by decide⟩ : Freq) (ts 2017 1 2 13 5) (ts 2017 1 4 10)
    raises 754 [.unacceptablePeriod] (do
      let x2 ← x1.partitionWithMarker { first := 0, last := ((x1.n : Int) - 1), skipLeft := 0, skipRight := 0 } { each := (⟨none, .D, by decide⟩ : Freq), ats := [] }
      pure ())
    pure ()) = true := by decide +kernel

/-- timeboard/tests/test_partitioning.py 767: `TestMultipliedFreqSplitBy.test_splitby_different_multiple_freqs3b`. -/
example : passes (do
    let x1 ← Frame.new (⟨some 12, .H, by decide⟩ : Freq) (ts 2017 1 2 1) (ts 2017 1 30)
    raises 772 [.unacceptablePeriod] (do
      let x2 ← x1.partitionWithMarker { first := 0, last := ((x1.n : Int) - 1), skipLeft := 0, skipRight := 0 } { each := (⟨some 2, .W none, by decide⟩ : Freq), ats := [] }
      pure ())
    pure ()) = true := by decide +kernel

/-- timeboard/tests/test_partitioning.py 775: `TestMultipliedFreqSplitBy.test_splitby_different_multiple_freqs4`. -/
example : passes (do
    let x1 ← Frame.new (⟨some 9, .H, by decide⟩ : Freq) (ts 2017 1 2) (ts 2017 1 30)
    raises 778 [.unacceptablePeriod] (do
      let x2 ← x1.partitionWithMarker { first := 0, last := ((x1.n : Int) - 1), skipLeft := 0, skipRight := 0 } { each := (⟨none, .D, by decide⟩ : Freq), ats := [] }
      pure ())
    raises 780 [.unacceptablePeriod] (do
      let x3 ← x1.partitionWithMarker { first := 0, last := ((x1.n : Int) - 1), skipLeft := 0, skipRight := 0 } { each := (⟨some 2, .W none, by decide⟩ : Freq), ats := [] }
      pure ())
    pure ()) = true := by decide +kernel

/-- timeboard/tests/test_partitioning.py 783: `TestMultipliedFreqSplitBy.test_splitby_different_multiple_freqs5`. -/
example : passes (do
    let x1 ← Frame.new (⟨some 48, .H, by decide⟩ : Freq) (ts 2017 1 2) (ts 2017 1 30)
    raises 786 [.unacceptablePeriod] (do
      let x2 ← x1.partitionWithMarker { first := 0, last := ((x1.n : Int) - 1), skipLeft := 0, skipRight := 0 } { each := (⟨none, .D, by decide⟩ : Freq), ats := [] }
      pure ())
    pure ()) = true := by decide +kernel

/-- timeboard/tests/test_partitioning.py 795: `TestMultipliedFreqSplitBy.test_splitby_different_multiple_freqs6b`. -/
example : passes (do
    let x1 ← Frame.new (⟨some 48, .H, by decide⟩ : Freq) (ts 2017 1 2 1) (ts 2017 1 30)
    raises 799 [.unacceptablePeriod] (do
      let x2 ← x1.partitionWithMarker { first := 0, last := ((x1.n : Int) - 1), skipLeft := 0, skipRight := 0 } { each := (⟨some 4, .D, by decide⟩ : Freq), ats := [] }
      pure ())
    pure ()) = true := by decide +kernel

/-- timeboard/tests/test_partitioning.py 809: `TestMultipliedFreqSplitBy.test_splitby_different_multiple_freqs7b`. -/
example : passes (do
    let x1 ← Frame.new (⟨some 7, .H, by decide⟩ : Freq) (ts 2017 1 3) (ts 2017 1 30)
    raises 813 [.unacceptablePeriod] (do
      let x2 ← x1.partitionWithMarker { first := 0, last := ((x1.n : Int) - 1), skipLeft := 0, skipRight := 0 } { each := (⟨none, .W none, by decide⟩ : Freq), ats := [] }
      pure ())
    pure ()) = true := by decide +kernel

/-- timeboard/tests/test_partitioning.py 821: `TestSplitByWeird.test_splitby_same_freq`. -/
example : passes (do
    let x1 ← Frame.new (⟨none, .D, by decide⟩ : Freq) (ts 2017 1 1) (ts 2017 1 3)
    let x2 ← x1.partitionWithMarker { first := 0, last := ((x1.n : Int) - 1), skipLeft := 0, skipRight := 0 } { each := (⟨none, .D, by decide⟩ : Freq), ats := [] }
    check 824 (decide ((x2.length : Int) = 3))
    let x3 ← item x2 0
    check 825 ((decide (x3.first = 0)) && (decide (x3.last = 0)) && (decide (x3.skipLeft = 0)) && (decide (x3.skipRight = 0)))
    let x4 ← item x2 1
    check 826 ((decide (x4.first = 1)) && (decide (x4.last = 1)) && (decide (x4.skipLeft = 0)) && (decide (x4.skipRight = 0)))
    let x5 ← item x2 2
    check 827 ((decide (x5.first = 2)) && (decide (x5.last = 2)) && (decide (x5.skipLeft = 0)) && (decide (x5.skipRight = 0)))
    pure ()) = true := by decide +kernel

/-- timeboard/tests/test_partitioning.py 829: `TestSplitByWeird.test_splitby_higher_freq_aligned`. -/
example : passes (do
    let x1 ← Frame.new (⟨none, .D, by decide⟩ : Freq) (ts 2017 1 1) (ts 2017 1 3)
    raises 831 [.unacceptablePeriod] (do
      let x2 ← x1.partitionWithMarker { first := 0, last := ((x1.n : Int) - 1), skipLeft := 0, skipRight := 0 } { each := (⟨none, .H, by decide⟩ : Freq), ats := [] }
      pure ())
    pure ()) = true := by decide +kernel

/-- timeboard/tests/test_partitioning.py 834: `TestSplitByWeird.test_splitby_higher_freq_not_aligned`. -/
example : passes (do
    let x1 ← Frame.new (⟨none, .M, by decide⟩ : Freq) (ts 2017 1 1) (ts 2017 2 1)
    raises 836 [.unacceptablePeriod] (do
      let x2 ← x1.partitionWithMarker { first := 0, last := ((x1.n : Int) - 1), skipLeft := 0, skipRight := 0 } { each := (⟨none, .W none, by decide⟩ : Freq), ats := [] }
      pure ())
    pure ()) = true := by decide +kernel

end TB.Conf
