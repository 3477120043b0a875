import Verif.Conformance.Support
/-!
# `timeboard/tests/test_intervals_compound.py`

Generated by `tools/conformance.py`.  One example per unit test: the statements of the test, performed by the
model, succeed.  These are checks of the model on single inputs, not proofs of properties.
-/
set_option linter.unusedVariables false
namespace TB.Conf

/-- timeboard/tests/test_intervals_compound.py 40: `TestIntervalCompoundConstructor.test_interval_constructor_compound_with_two_ts`. -/
example : passes (do
    let (x1, x2) ← Timeboard.new (L := V) { freq := (⟨none, .H, by decide⟩ : Freq), start := (ts 2017 10 1), stop := (ts 2017 10 6), layout := .organizer (.marker { each := (⟨none, .D, by decide⟩ : Freq), ats := [fromStartOfEach (some { hours := 2 }), fromStartOfEach (some { hours := 8 }), fromStartOfEach (some { hours := 18 })] }) [.label (.i 1), .label (.i 0)], selector := V.truthy, defaultLabel := V.none, worktimeSource := "duration" } (noHeap : Heap V)
    let x3 ← x1.getInterval (some (.pair (some (ts 2017 10 1 10)) (some (ts 2017 10 2 23)))) none none true "11" none
    let x4 ← x3.startTime x1
    let x5 ← notNaT x4
    check 43 (decide (x5 = (ts 2017 10 1 8)))
    let x6 ← x3.endTime x1
    let x7 ← notNaT x6
    check 44 (decide (x7 > (ts 2017 10 3 1 59 59)))
    let x8 ← x3.endTime x1
    let x9 ← notNaT x8
    check 45 (decide (x9 < (ts 2017 10 3 2)))
    check 46 (decide ((x3.lo, x3.hi) = (2, 6)))
    check 47 (decide (x3.len = 5))
    let x10 ← x1.call1 (.pair (some (ts 2017 10 1 10)) (some (ts 2017 10 2 23)))
    let x11 ← asIvl x10
    check 50 (decide ((x11.lo, x11.hi) = (x3.lo, x3.hi)))
    pure ()) = true := by decide +kernel

/-- timeboard/tests/test_intervals_compound.py 52: `TestIntervalCompoundConstructor.test_interval_constructor_compound_with_two_ts_open_ended`. -/
example : passes (do
    let (x1, x2) ← Timeboard.new (L := V) { freq := (⟨none, .H, by decide⟩ : Freq), start := (ts 2017 10 1), stop := (ts 2017 10 6), layout := .organizer (.marker { each := (⟨none, .D, by decide⟩ : Freq), ats := [fromStartOfEach (some { hours := 2 }), fromStartOfEach (some { hours := 8 }), fromStartOfEach (some { hours := 18 })] }) [.label (.i 1), .label (.i 0)], selector := V.truthy, defaultLabel := V.none, worktimeSource := "duration" } (noHeap : Heap V)
    let x3 ← x1.getInterval (some (.pair (some (ts 2017 10 1 10)) (some (ts 2017 10 2 23)))) none none true "00" none
    let x4 ← x3.startTime x1
    let x5 ← notNaT x4
    check 56 (decide (x5 = (ts 2017 10 1 18)))
    let x6 ← x3.endTime x1
    let x7 ← notNaT x6
    check 57 (decide (x7 > (ts 2017 10 2 17 59 59)))
    let x8 ← x3.endTime x1
    let x9 ← notNaT x8
    check 58 (decide (x9 < (ts 2017 10 2 18)))
    check 59 (decide ((x3.lo, x3.hi) = (3, 5)))
    check 60 (decide (x3.len = 3))
    pure ()) = true := by decide +kernel

/-- timeboard/tests/test_intervals_compound.py 62: `TestIntervalCompoundConstructor.test_interval_constructor_compound_with_two_ts_same_ws`. -/
example : passes (do
    let (x1, x2) ← Timeboard.new (L := V) { freq := (⟨none, .H, by decide⟩ : Freq), start := (ts 2017 10 1), stop := (ts 2017 10 6), layout := .organizer (.marker { each := (⟨none, .D, by decide⟩ : Freq), ats := [fromStartOfEach (some { hours := 2 }), fromStartOfEach (some { hours := 8 }), fromStartOfEach (some { hours := 18 })] }) [.label (.i 1), .label (.i 0)], selector := V.truthy, defaultLabel := V.none, worktimeSource := "duration" } (noHeap : Heap V)
    let x3 ← x1.getInterval (some (.pair (some (ts 2017 10 2 19 15)) (some (ts 2017 10 3 1 10)))) none none true "11" none
    let x4 ← x3.startTime x1
    let x5 ← notNaT x4
    check 65 (decide (x5 = (ts 2017 10 2 18)))
    let x6 ← x3.endTime x1
    let x7 ← notNaT x6
    check 66 (decide (x7 > (ts 2017 10 3 1 59 59)))
    let x8 ← x3.endTime x1
    let x9 ← notNaT x8
    check 67 (decide (x9 < (ts 2017 10 3 2)))
    check 68 (decide ((x3.lo, x3.hi) = (6, 6)))
    check 69 (decide (x3.len = 1))
    let x10 ← x1.call1 (.pair (some (ts 2017 10 2 19 15)) (some (ts 2017 10 3 1 10)))
    let x11 ← asIvl x10
    check 72 (decide ((x11.lo, x11.hi) = (x3.lo, x3.hi)))
    pure ()) = true := by decide +kernel

/-- timeboard/tests/test_intervals_compound.py 74: `TestIntervalCompoundConstructor.test_interval_constructor_compound_with_length`. -/
example : passes (do
    let (x1, x2) ← Timeboard.new (L := V) { freq := (⟨none, .H, by decide⟩ : Freq), start := (ts 2017 10 1), stop := (ts 2017 10 6), layout := .organizer (.marker { each := (⟨none, .D, by decide⟩ : Freq), ats := [fromStartOfEach (some { hours := 2 }), fromStartOfEach (some { hours := 8 }), fromStartOfEach (some { hours := 18 })] }) [.label (.i 1), .label (.i 0)], selector := V.truthy, defaultLabel := V.none, worktimeSource := "duration" } (noHeap : Heap V)
    let x3 ← x1.getInterval (some (.point (ts 2017 10 2 15))) (some 7) none true "11" none
    let x4 ← x3.startTime x1
    let x5 ← notNaT x4
    check 77 (decide (x5 = (ts 2017 10 2 8)))
    let x6 ← x3.endTime x1
    let x7 ← notNaT x6
    check 78 (decide (x7 > (ts 2017 10 4 17 59 59)))
    let x8 ← x3.endTime x1
    let x9 ← notNaT x8
    check 79 (decide (x9 < (ts 2017 10 4 18)))
    check 80 (decide ((x3.lo, x3.hi) = (5, 11)))
    check 81 (decide (x3.len = 7))
    let x10 ← x1.callN (some (.point (ts 2017 10 2 15))) (some 7) none true "11" none
    let x11 ← asIvl x10
    check 84 (decide ((x11.lo, x11.hi) = (x3.lo, x3.hi)))
    pure ()) = true := by decide +kernel

/-- timeboard/tests/test_intervals_compound.py 86: `TestIntervalCompoundConstructor.test_interval_constructor_compound_with_period`. -/
example : passes (do
    let (x1, x2) ← Timeboard.new (L := V) { freq := (⟨none, .H, by decide⟩ : Freq), start := (ts 2017 10 1), stop := (ts 2017 10 6), layout := .organizer (.marker { each := (⟨none, .D, by decide⟩ : Freq), ats := [fromStartOfEach (some { hours := 2 }), fromStartOfEach (some { hours := 8 }), fromStartOfEach (some { hours := 18 })] }) [.label (.i 1), .label (.i 0)], selector := V.truthy, defaultLabel := V.none, worktimeSource := "duration" } (noHeap : Heap V)
    let x3 ← x1.getInterval (some (.point (ts 2017 10 1 19))) none (some (⟨none, .D, by decide⟩ : Freq)) true "11" none
    let x4 ← x3.startTime x1
    let x5 ← notNaT x4
    check 89 (decide (x5 = (ts 2017 10 1)))
    let x6 ← x3.endTime x1
    let x7 ← notNaT x6
    check 90 (decide (x7 > (ts 2017 10 2 1 59 59)))
    let x8 ← x3.endTime x1
    let x9 ← notNaT x8
    check 91 (decide (x9 < (ts 2017 10 2 2)))
    check 92 (decide ((x3.lo, x3.hi) = (0, 3)))
    check 93 (decide (x3.len = 4))
    let x10 ← x1.callN (some (.point (ts 2017 10 1 3))) none (some (⟨none, .D, by decide⟩ : Freq)) true "11" none
    let x11 ← asIvl x10
    check 96 (decide ((x11.lo, x11.hi) = (x3.lo, x3.hi)))
    let x12 ← x1.getInterval (some (.period (Period.ofTime (⟨none, .D, by decide⟩ : Freq) (ts 2017 10 1 19)))) none none true "11" none
    check 99 (decide ((x12.lo, x12.hi) = (0, 3)))
    pure ()) = true := by decide +kernel

/-- timeboard/tests/test_intervals_compound.py 102: `TestIntervalCompoundConstructor.test_interval_constructor_compound_with_period2`. -/
example : passes (do
    let (x1, x2) ← Timeboard.new (L := V) { freq := (⟨none, .H, by decide⟩ : Freq), start := (ts 2017 10 1), stop := (ts 2017 10 6), layout := .organizer (.marker { each := (⟨none, .D, by decide⟩ : Freq), ats := [fromStartOfEach (some { hours := 2 }), fromStartOfEach (some { hours := 8 }), fromStartOfEach (some { hours := 18 })] }) [.label (.i 1), .label (.i 0)], selector := V.truthy, defaultLabel := V.none, worktimeSource := "duration" } (noHeap : Heap V)
    let x3 ← x1.getInterval (some (.point (ts 2017 10 2 1))) none (some (⟨none, .D, by decide⟩ : Freq)) true "11" none
    let x4 ← x3.startTime x1
    let x5 ← notNaT x4
    check 109 (decide (x5 = (ts 2017 10 2 2)))
    let x6 ← x3.endTime x1
    let x7 ← notNaT x6
    check 110 (decide (x7 > (ts 2017 10 3 1 59 59)))
    let x8 ← x3.endTime x1
    let x9 ← notNaT x8
    check 111 (decide (x9 < (ts 2017 10 3 2)))
    check 112 (decide ((x3.lo, x3.hi) = (4, 6)))
    check 113 (decide (x3.len = 3))
    let x10 ← x1.callN (some (.point (ts 2017 10 2 1))) none (some (⟨none, .D, by decide⟩ : Freq)) true "11" none
    let x11 ← asIvl x10
    check 116 (decide ((x11.lo, x11.hi) = (x3.lo, x3.hi)))
    pure ()) = true := by decide +kernel

/-- timeboard/tests/test_intervals_compound.py 118: `TestIntervalCompoundConstructor.test_interval_constructor_compound_with_period3`. -/
example : passes (do
    let (x1, x2) ← Timeboard.new (L := V) { freq := (⟨none, .H, by decide⟩ : Freq), start := (ts 2017 10 1), stop := (ts 2017 10 6), layout := .organizer (.marker { each := (⟨none, .D, by decide⟩ : Freq), ats := [fromStartOfEach (some { hours := 2 }), fromStartOfEach (some { hours := 8 }), fromStartOfEach (some { hours := 18 })] }) [.label (.i 1), .label (.i 0)], selector := V.truthy, defaultLabel := V.none, refEnd := true, worktimeSource := "duration" } (noHeap : Heap V)
    let x3 ← x1.getInterval (some (.point (ts 2017 10 1 19))) none (some (⟨none, .D, by decide⟩ : Freq)) true "11" none
    let x4 ← x3.startTime x1
    let x5 ← notNaT x4
    check 125 (decide (x5 = (ts 2017 10 1)))
    let x6 ← x3.endTime x1
    let x7 ← notNaT x6
    check 126 (decide (x7 > (ts 2017 10 1 17 59 59)))
    let x8 ← x3.endTime x1
    let x9 ← notNaT x8
    check 127 (decide (x9 < (ts 2017 10 1 18)))
    check 128 (decide ((x3.lo, x3.hi) = (0, 2)))
    check 129 (decide (x3.len = 3))
    let x10 ← x1.callN (some (.point (ts 2017 10 1 19))) none (some (⟨none, .D, by decide⟩ : Freq)) true "11" none
    let x11 ← asIvl x10
    check 132 (decide ((x11.lo, x11.hi) = (x3.lo, x3.hi)))
    pure ()) = true := by decide +kernel

/-- timeboard/tests/test_intervals_compound.py 134: `TestIntervalCompoundConstructor.test_interval_constructor_compound_with_period4`. -/
example : passes (do
    let (x1, x2) ← Timeboard.new (L := V) { freq := (⟨none, .H, by decide⟩ : Freq), start := (ts 2017 10 1), stop := (ts 2017 10 6), layout := .organizer (.marker { each := (⟨none, .D, by decide⟩ : Freq), ats := [fromStartOfEach (some { hours := 2 }), fromStartOfEach (some { hours := 8 }), fromStartOfEach (some { hours := 18 })] }) [.label (.i 1), .label (.i 0)], selector := V.truthy, defaultLabel := V.none, refEnd := true, worktimeSource := "duration" } (noHeap : Heap V)
    let x3 ← x1.getInterval (some (.point (ts 2017 10 2 1))) none (some (⟨none, .D, by decide⟩ : Freq)) true "11" none
    let x4 ← x3.startTime x1
    let x5 ← notNaT x4
    check 140 (decide (x5 = (ts 2017 10 1 18)))
    let x6 ← x3.endTime x1
    let x7 ← notNaT x6
    check 141 (decide (x7 > (ts 2017 10 2 17 59 59)))
    let x8 ← x3.endTime x1
    let x9 ← notNaT x8
    check 142 (decide (x9 < (ts 2017 10 2 18)))
    check 143 (decide ((x3.lo, x3.hi) = (3, 5)))
    check 144 (decide (x3.len = 3))
    let x10 ← x1.callN (some (.point (ts 2017 10 2 1))) none (some (⟨none, .D, by decide⟩ : Freq)) true "11" none
    let x11 ← asIvl x10
    check 147 (decide ((x11.lo, x11.hi) = (x3.lo, x3.hi)))
    pure ()) = true := by decide +kernel

/-- timeboard/tests/test_intervals_compound.py 149: `TestIntervalCompoundConstructor.test_interval_constructor_compound_with_period_partial`. -/
example : passes (do
    let (x1, x2) ← Timeboard.new (L := V) { freq := (⟨none, .H, by decide⟩ : Freq), start := (ts 2017 10 1), stop := (ts 2017 10 6), layout := .organizer (.marker { each := (⟨none, .D, by decide⟩ : Freq), ats := [fromStartOfEach (some { hours := 2 }), fromStartOfEach (some { hours := 8 }), fromStartOfEach (some { hours := 18 })] }) [.label (.i 1), .label (.i 0)], selector := V.truthy, defaultLabel := V.none, worktimeSource := "duration" } (noHeap : Heap V)
    raises 153 [.outOfBounds] (do
      let x3 ← x1.getInterval (some (.point (ts 2017 10 6 0 15))) none (some (⟨none, .D, by decide⟩ : Freq)) true "11" none
      pure ())
    pure ()) = true := by decide +kernel

/-- timeboard/tests/test_intervals_compound.py 157: `TestIntervalCompoundConstructor.test_interval_constructor_compound_with_period_partial2`. -/
example : passes (do
    let (x1, x2) ← Timeboard.new (L := V) { freq := (⟨none, .H, by decide⟩ : Freq), start := (ts 2017 10 1), stop := (ts 2017 10 6), layout := .organizer (.marker { each := (⟨none, .D, by decide⟩ : Freq), ats := [fromStartOfEach (some { hours := 2 }), fromStartOfEach (some { hours := 8 }), fromStartOfEach (some { hours := 18 })] }) [.label (.i 1), .label (.i 0)], selector := V.truthy, defaultLabel := V.none, refEnd := true, worktimeSource := "duration" } (noHeap : Heap V)
    let x3 ← x1.getInterval (some (.point (ts 2017 10 6 0 15))) none (some (⟨none, .D, by decide⟩ : Freq)) true "11" none
    let x4 ← x3.startTime x1
    let x5 ← notNaT x4
    check 160 (decide (x5 = (ts 2017 10 5 18)))
    let x6 ← x3.endTime x1
    let x7 ← notNaT x6
    check 161 (decide (x7 > (ts 2017 10 6 0 59 59)))
    let x8 ← x3.endTime x1
    let x9 ← notNaT x8
    check 162 (decide (x9 < (ts 2017 10 6 1)))
    check 163 (decide ((x3.lo, x3.hi) = (15, 15)))
    check 164 (decide (x3.len = 1))
    let x10 ← x1.getInterval (some (.point (ts 2017 10 6 20 15))) none (some (⟨none, .D, by decide⟩ : Freq)) true "11" none
    check 167 (decide ((x10.lo, x10.hi) = (15, 15)))
    raises 168 [.partialOutOfBounds] (do
      let x11 ← x1.getInterval (some (.point (ts 2017 10 6 0 15))) none (some (⟨none, .D, by decide⟩ : Freq)) false "11" none
      pure ())
    pure ()) = true := by decide +kernel

/-- timeboard/tests/test_intervals_compound.py 172: `TestIntervalCompoundConstructor.test_interval_constructor_compound_with_period_partial3`. -/
example : passes (do
    let (x1, x2) ← Timeboard.new (L := V) { freq := (⟨none, .H, by decide⟩ : Freq), start := (ts 2017 10 1), stop := (ts 2017 10 6), layout := .organizer (.marker { each := (⟨none, .D, by decide⟩ : Freq), ats := [fromStartOfEach (some { hours := 2 }), fromStartOfEach (some { hours := 8 }), fromStartOfEach (some { hours := 18 })] }) [.label (.i 1), .label (.i 0)], selector := V.truthy, defaultLabel := V.none, worktimeSource := "duration" } (noHeap : Heap V)
    let x3 ← x1.getInterval (some (.point (ts 2017 10 1 0 15))) none (some (⟨none, .W none, by decide⟩ : Freq)) true "11" none
    let x4 ← x3.startTime x1
    let x5 ← notNaT x4
    check 176 (decide (x5 = (ts 2017 10 1)))
    let x6 ← x3.endTime x1
    let x7 ← notNaT x6
    check 177 (decide (x7 > (ts 2017 10 2 1 59 59)))
    let x8 ← x3.endTime x1
    let x9 ← notNaT x8
    check 178 (decide (x9 < (ts 2017 10 2 2)))
    check 179 (decide ((x3.lo, x3.hi) = (0, 3)))
    check 180 (decide (x3.len = 4))
    let x10 ← x1.getInterval (some (.point (ts 2017 9 30 12))) none (some (⟨none, .W none, by decide⟩ : Freq)) true "11" none
    check 183 (decide ((x10.lo, x10.hi) = (0, 3)))
    raises 184 [.partialOutOfBounds] (do
      let x11 ← x1.getInterval (some (.point (ts 2017 10 1 0 15))) none (some (⟨none, .W none, by decide⟩ : Freq)) false "11" none
      pure ())
    pure ()) = true := by decide +kernel

/-- timeboard/tests/test_intervals_compound.py 188: `TestIntervalCompoundConstructor.test_interval_constructor_compound_with_period_partial4`. -/
example : passes (do
    let (x1, x2) ← Timeboard.new (L := V) { freq := (⟨none, .H, by decide⟩ : Freq), start := (ts 2017 10 1), stop := (ts 2017 10 6), layout := .organizer (.marker { each := (⟨none, .D, by decide⟩ : Freq), ats := [fromStartOfEach (some { hours := 2 }), fromStartOfEach (some { hours := 8 }), fromStartOfEach (some { hours := 18 })] }) [.label (.i 1), .label (.i 0)], selector := V.truthy, defaultLabel := V.none, refEnd := true, worktimeSource := "duration" } (noHeap : Heap V)
    let x3 ← x1.getInterval (some (.point (ts 2017 10 1 0 15))) none (some (⟨none, .W none, by decide⟩ : Freq)) true "11" none
    let x4 ← x3.startTime x1
    let x5 ← notNaT x4
    check 192 (decide (x5 = (ts 2017 10 1)))
    let x6 ← x3.endTime x1
    let x7 ← notNaT x6
    check 193 (decide (x7 > (ts 2017 10 1 17 59 59)))
    let x8 ← x3.endTime x1
    let x9 ← notNaT x8
    check 194 (decide (x9 < (ts 2017 10 1 18)))
    check 195 (decide ((x3.lo, x3.hi) = (0, 2)))
    check 196 (decide (x3.len = 3))
    let x10 ← x1.getInterval (some (.point (ts 2017 9 30 12))) none (some (⟨none, .W none, by decide⟩ : Freq)) true "11" none
    check 199 (decide ((x10.lo, x10.hi) = (0, 2)))
    raises 200 [.partialOutOfBounds] (do
      let x11 ← x1.getInterval (some (.point (ts 2017 10 1 0 15))) none (some (⟨none, .W none, by decide⟩ : Freq)) false "11" none
      pure ())
    pure ()) = true := by decide +kernel

/-- timeboard/tests/test_intervals_compound.py 207: `TestIntervalCompoundCountPeriodsWithLocsNotStraddling.test_ivl_compound_count_periods_one_float_right_duty_on`. -/
example : passes (do
    let (x1, x2) ← Timeboard.new (L := V) { freq := (⟨none, .H, by decide⟩ : Freq), start := (ts 2017 10 1), stop := (ts 2017 10 6), layout := .organizer (.marker { each := (⟨none, .D, by decide⟩ : Freq), ats := [fromStartOfEach (some { hours := 2 }), fromStartOfEach (some { hours := 8 }), fromStartOfEach (some { hours := 18 })] }) [.label (.i 1), .label (.i 0)], selector := V.truthy, defaultLabel := V.none, worktimeSource := "duration" } (noHeap : Heap V)
    let x3 ← Interval.new x1 (4, 5) none
    let x4 ← x3.countPeriods x1 (⟨none, .D, by decide⟩ : Freq) .on none
    check 210 (decide (x4 = ((1 : Rat) / 2)))
    let (x5, x6) ← Timeboard.new (L := V) { freq := (⟨none, .H, by decide⟩ : Freq), start := (ts 2017 10 1), stop := (ts 2017 10 6), layout := .organizer (.marker { each := (⟨none, .D, by decide⟩ : Freq), ats := [fromStartOfEach (some { hours := 2 }), fromStartOfEach (some { hours := 8 }), fromStartOfEach (some { hours := 18 })] }) [.label (.i 1), .label (.i 0)], selector := V.truthy, defaultLabel := V.none, refEnd := true, worktimeSource := "duration" } x2
    check 212 (x5.timeline.refEnd)
    let x7 ← Interval.new x5 (4, 5) none
    let x8 ← x7.countPeriods x5 (⟨none, .D, by decide⟩ : Freq) .on none
    check 214 (decide (x8 = (1 : Rat)))
    pure ()) = true := by decide +kernel

/-- timeboard/tests/test_intervals_compound.py 216: `TestIntervalCompoundCountPeriodsWithLocsNotStraddling.test_ivl_compound_count_periods_one_float_right_duty_off`. -/
example : passes (do
    let (x1, x2) ← Timeboard.new (L := V) { freq := (⟨none, .H, by decide⟩ : Freq), start := (ts 2017 10 1), stop := (ts 2017 10 6), layout := .organizer (.marker { each := (⟨none, .D, by decide⟩ : Freq), ats := [fromStartOfEach (some { hours := 2 }), fromStartOfEach (some { hours := 8 }), fromStartOfEach (some { hours := 18 })] }) [.label (.i 1), .label (.i 0)], selector := V.truthy, defaultLabel := V.none, worktimeSource := "duration" } (noHeap : Heap V)
    let x3 ← Interval.new x1 (7, 8) none
    let x4 ← x3.countPeriods x1 (⟨none, .D, by decide⟩ : Freq) .off none
    check 219 (decide (x4 = ((1 : Rat) / 2)))
    let (x5, x6) ← Timeboard.new (L := V) { freq := (⟨none, .H, by decide⟩ : Freq), start := (ts 2017 10 1), stop := (ts 2017 10 6), layout := .organizer (.marker { each := (⟨none, .D, by decide⟩ : Freq), ats := [fromStartOfEach (some { hours := 2 }), fromStartOfEach (some { hours := 8 }), fromStartOfEach (some { hours := 18 })] }) [.label (.i 1), .label (.i 0)], selector := V.truthy, defaultLabel := V.none, refEnd := true, worktimeSource := "duration" } x2
    let x7 ← Interval.new x5 (7, 8) none
    let x8 ← x7.countPeriods x5 (⟨none, .D, by decide⟩ : Freq) .off none
    check 222 (decide (x8 = (1 : Rat)))
    pure ()) = true := by decide +kernel

/-- timeboard/tests/test_intervals_compound.py 224: `TestIntervalCompoundCountPeriodsWithLocsNotStraddling.test_ivl_compound_count_periods_one_float_right_duty_any`. -/
example : passes (do
    let (x1, x2) ← Timeboard.new (L := V) { freq := (⟨none, .H, by decide⟩ : Freq), start := (ts 2017 10 1), stop := (ts 2017 10 6), layout := .organizer (.marker { each := (⟨none, .D, by decide⟩ : Freq), ats := [fromStartOfEach (some { hours := 2 }), fromStartOfEach (some { hours := 8 }), fromStartOfEach (some { hours := 18 })] }) [.label (.i 1), .label (.i 0)], selector := V.truthy, defaultLabel := V.none, worktimeSource := "duration" } (noHeap : Heap V)
    let x3 ← Interval.new x1 (1, 2) none
    let x4 ← x3.countPeriods x1 (⟨none, .D, by decide⟩ : Freq) .any none
    check 227 (decide (x4 = ((1 : Rat) / 2)))
    let (x5, x6) ← Timeboard.new (L := V) { freq := (⟨none, .H, by decide⟩ : Freq), start := (ts 2017 10 1), stop := (ts 2017 10 6), layout := .organizer (.marker { each := (⟨none, .D, by decide⟩ : Freq), ats := [fromStartOfEach (some { hours := 2 }), fromStartOfEach (some { hours := 8 }), fromStartOfEach (some { hours := 18 })] }) [.label (.i 1), .label (.i 0)], selector := V.truthy, defaultLabel := V.none, refEnd := true, worktimeSource := "duration" } x2
    let x7 ← Interval.new x5 (1, 2) none
    let x8 ← x7.countPeriods x5 (⟨none, .D, by decide⟩ : Freq) .any none
    check 230 (decide (x8 = ((2 : Rat) / 3)))
    pure ()) = true := by decide +kernel

/-- timeboard/tests/test_intervals_compound.py 232: `TestIntervalCompoundCountPeriodsWithLocsNotStraddling.test_ivl_compound_count_periods_one_float_left_duty_on`. -/
example : passes (do
    let (x1, x2) ← Timeboard.new (L := V) { freq := (⟨none, .H, by decide⟩ : Freq), start := (ts 2017 10 1), stop := (ts 2017 10 6), layout := .organizer (.marker { each := (⟨none, .D, by decide⟩ : Freq), ats := [fromStartOfEach (some { hours := 2 }), fromStartOfEach (some { hours := 8 }), fromStartOfEach (some { hours := 18 })] }) [.label (.i 1), .label (.i 0)], selector := V.truthy, defaultLabel := V.none, worktimeSource := "duration" } (noHeap : Heap V)
    let x3 ← Interval.new x1 (7, 8) none
    let x4 ← x3.countPeriods x1 (⟨none, .D, by decide⟩ : Freq) .on none
    check 235 (decide (x4 = (1 : Rat)))
    let (x5, x6) ← Timeboard.new (L := V) { freq := (⟨none, .H, by decide⟩ : Freq), start := (ts 2017 10 1), stop := (ts 2017 10 6), layout := .organizer (.marker { each := (⟨none, .D, by decide⟩ : Freq), ats := [fromStartOfEach (some { hours := 2 }), fromStartOfEach (some { hours := 8 }), fromStartOfEach (some { hours := 18 })] }) [.label (.i 1), .label (.i 0)], selector := V.truthy, defaultLabel := V.none, refEnd := true, worktimeSource := "duration" } x2
    let x7 ← Interval.new x5 (7, 8) none
    let x8 ← x7.countPeriods x5 (⟨none, .D, by decide⟩ : Freq) .on none
    check 238 (decide (x8 = ((1 : Rat) / 2)))
    pure ()) = true := by decide +kernel

/-- timeboard/tests/test_intervals_compound.py 240: `TestIntervalCompoundCountPeriodsWithLocsNotStraddling.test_ivl_compound_count_periods_one_float_left_duty_off`. -/
example : passes (do
    let (x1, x2) ← Timeboard.new (L := V) { freq := (⟨none, .H, by decide⟩ : Freq), start := (ts 2017 10 1), stop := (ts 2017 10 6), layout := .organizer (.marker { each := (⟨none, .D, by decide⟩ : Freq), ats := [fromStartOfEach (some { hours := 2 }), fromStartOfEach (some { hours := 8 }), fromStartOfEach (some { hours := 18 })] }) [.label (.i 1), .label (.i 0)], selector := V.truthy, defaultLabel := V.none, worktimeSource := "duration" } (noHeap : Heap V)
    let x3 ← Interval.new x1 (4, 5) none
    let x4 ← x3.countPeriods x1 (⟨none, .D, by decide⟩ : Freq) .off none
    check 243 (decide (x4 = (1 : Rat)))
    let (x5, x6) ← Timeboard.new (L := V) { freq := (⟨none, .H, by decide⟩ : Freq), start := (ts 2017 10 1), stop := (ts 2017 10 6), layout := .organizer (.marker { each := (⟨none, .D, by decide⟩ : Freq), ats := [fromStartOfEach (some { hours := 2 }), fromStartOfEach (some { hours := 8 }), fromStartOfEach (some { hours := 18 })] }) [.label (.i 1), .label (.i 0)], selector := V.truthy, defaultLabel := V.none, refEnd := true, worktimeSource := "duration" } x2
    let x7 ← Interval.new x5 (4, 5) none
    let x8 ← x7.countPeriods x5 (⟨none, .D, by decide⟩ : Freq) .off none
    check 246 (decide (x8 = ((1 : Rat) / 2)))
    pure ()) = true := by decide +kernel

/-- timeboard/tests/test_intervals_compound.py 248: `TestIntervalCompoundCountPeriodsWithLocsNotStraddling.test_ivl_compound_count_periods_many_float_right_duty_on`. -/
example : passes (do
    let (x1, x2) ← Timeboard.new (L := V) { freq := (⟨none, .H, by decide⟩ : Freq), start := (ts 2017 10 1), stop := (ts 2017 10 6), layout := .organizer (.marker { each := (⟨none, .D, by decide⟩ : Freq), ats := [fromStartOfEach (some { hours := 2 }), fromStartOfEach (some { hours := 8 }), fromStartOfEach (some { hours := 18 })] }) [.label (.i 1), .label (.i 0)], selector := V.truthy, defaultLabel := V.none, worktimeSource := "duration" } (noHeap : Heap V)
    let x3 ← Interval.new x1 (4, 11) none
    let x4 ← x3.countPeriods x1 (⟨none, .D, by decide⟩ : Freq) .on none
    check 251 (decide (x4 = ((5 : Rat) / 2)))
    let (x5, x6) ← Timeboard.new (L := V) { freq := (⟨none, .H, by decide⟩ : Freq), start := (ts 2017 10 1), stop := (ts 2017 10 6), layout := .organizer (.marker { each := (⟨none, .D, by decide⟩ : Freq), ats := [fromStartOfEach (some { hours := 2 }), fromStartOfEach (some { hours := 8 }), fromStartOfEach (some { hours := 18 })] }) [.label (.i 1), .label (.i 0)], selector := V.truthy, defaultLabel := V.none, refEnd := true, worktimeSource := "duration" } x2
    let x7 ← Interval.new x5 (4, 11) none
    let x8 ← x7.countPeriods x5 (⟨none, .D, by decide⟩ : Freq) .on none
    check 254 (decide (x8 = (3 : Rat)))
    pure ()) = true := by decide +kernel

/-- timeboard/tests/test_intervals_compound.py 256: `TestIntervalCompoundCountPeriodsWithLocsNotStraddling.test_ivl_compound_count_periods_many_float_left_duty_off`. -/
example : passes (do
    let (x1, x2) ← Timeboard.new (L := V) { freq := (⟨none, .H, by decide⟩ : Freq), start := (ts 2017 10 1), stop := (ts 2017 10 6), layout := .organizer (.marker { each := (⟨none, .D, by decide⟩ : Freq), ats := [fromStartOfEach (some { hours := 2 }), fromStartOfEach (some { hours := 8 }), fromStartOfEach (some { hours := 18 })] }) [.label (.i 1), .label (.i 0)], selector := V.truthy, defaultLabel := V.none, worktimeSource := "duration" } (noHeap : Heap V)
    let x3 ← Interval.new x1 (4, 11) none
    let x4 ← x3.countPeriods x1 (⟨none, .D, by decide⟩ : Freq) .off none
    check 259 (decide (x4 = (3 : Rat)))
    let (x5, x6) ← Timeboard.new (L := V) { freq := (⟨none, .H, by decide⟩ : Freq), start := (ts 2017 10 1), stop := (ts 2017 10 6), layout := .organizer (.marker { each := (⟨none, .D, by decide⟩ : Freq), ats := [fromStartOfEach (some { hours := 2 }), fromStartOfEach (some { hours := 8 }), fromStartOfEach (some { hours := 18 })] }) [.label (.i 1), .label (.i 0)], selector := V.truthy, defaultLabel := V.none, refEnd := true, worktimeSource := "duration" } x2
    let x7 ← Interval.new x5 (4, 11) none
    let x8 ← x7.countPeriods x5 (⟨none, .D, by decide⟩ : Freq) .off none
    check 262 (decide (x8 = ((5 : Rat) / 2)))
    pure ()) = true := by decide +kernel

/-- timeboard/tests/test_intervals_compound.py 264: `TestIntervalCompoundCountPeriodsWithLocsNotStraddling.test_ivl_compound_count_periods_many_float_left_duty_on`. -/
example : passes (do
    let (x1, x2) ← Timeboard.new (L := V) { freq := (⟨none, .H, by decide⟩ : Freq), start := (ts 2017 10 1), stop := (ts 2017 10 6), layout := .organizer (.marker { each := (⟨none, .D, by decide⟩ : Freq), ats := [fromStartOfEach (some { hours := 2 }), fromStartOfEach (some { hours := 8 }), fromStartOfEach (some { hours := 18 })] }) [.label (.i 1), .label (.i 0)], selector := V.truthy, defaultLabel := V.none, worktimeSource := "duration" } (noHeap : Heap V)
    let x3 ← Interval.new x1 (7, 14) none
    let x4 ← x3.countPeriods x1 (⟨none, .D, by decide⟩ : Freq) .on none
    check 267 (decide (x4 = (3 : Rat)))
    let (x5, x6) ← Timeboard.new (L := V) { freq := (⟨none, .H, by decide⟩ : Freq), start := (ts 2017 10 1), stop := (ts 2017 10 6), layout := .organizer (.marker { each := (⟨none, .D, by decide⟩ : Freq), ats := [fromStartOfEach (some { hours := 2 }), fromStartOfEach (some { hours := 8 }), fromStartOfEach (some { hours := 18 })] }) [.label (.i 1), .label (.i 0)], selector := V.truthy, defaultLabel := V.none, refEnd := true, worktimeSource := "duration" } x2
    let x7 ← Interval.new x5 (7, 14) none
    let x8 ← x7.countPeriods x5 (⟨none, .D, by decide⟩ : Freq) .on none
    check 270 (decide (x8 = ((5 : Rat) / 2)))
    pure ()) = true := by decide +kernel

/-- timeboard/tests/test_intervals_compound.py 272: `TestIntervalCompoundCountPeriodsWithLocsNotStraddling.test_ivl_compound_count_periods_many_float_right_duty_off`. -/
example : passes (do
    let (x1, x2) ← Timeboard.new (L := V) { freq := (⟨none, .H, by decide⟩ : Freq), start := (ts 2017 10 1), stop := (ts 2017 10 6), layout := .organizer (.marker { each := (⟨none, .D, by decide⟩ : Freq), ats := [fromStartOfEach (some { hours := 2 }), fromStartOfEach (some { hours := 8 }), fromStartOfEach (some { hours := 18 })] }) [.label (.i 1), .label (.i 0)], selector := V.truthy, defaultLabel := V.none, worktimeSource := "duration" } (noHeap : Heap V)
    let x3 ← Interval.new x1 (7, 14) none
    let x4 ← x3.countPeriods x1 (⟨none, .D, by decide⟩ : Freq) .off none
    check 275 (decide (x4 = ((5 : Rat) / 2)))
    let (x5, x6) ← Timeboard.new (L := V) { freq := (⟨none, .H, by decide⟩ : Freq), start := (ts 2017 10 1), stop := (ts 2017 10 6), layout := .organizer (.marker { each := (⟨none, .D, by decide⟩ : Freq), ats := [fromStartOfEach (some { hours := 2 }), fromStartOfEach (some { hours := 8 }), fromStartOfEach (some { hours := 18 })] }) [.label (.i 1), .label (.i 0)], selector := V.truthy, defaultLabel := V.none, refEnd := true, worktimeSource := "duration" } x2
    let x7 ← Interval.new x5 (7, 14) none
    let x8 ← x7.countPeriods x5 (⟨none, .D, by decide⟩ : Freq) .off none
    check 278 (decide (x8 = (3 : Rat)))
    pure ()) = true := by decide +kernel

/-- timeboard/tests/test_intervals_compound.py 280: `TestIntervalCompoundCountPeriodsWithLocsNotStraddling.test_ivl_compound_count_periods_many_float_both_duty_any`. -/
example : passes (do
    let (x1, x2) ← Timeboard.new (L := V) { freq := (⟨none, .H, by decide⟩ : Freq), start := (ts 2017 10 1), stop := (ts 2017 10 6), layout := .organizer (.marker { each := (⟨none, .D, by decide⟩ : Freq), ats := [fromStartOfEach (some { hours := 2 }), fromStartOfEach (some { hours := 8 }), fromStartOfEach (some { hours := 18 })] }) [.label (.i 1), .label (.i 0)], selector := V.truthy, defaultLabel := V.none, worktimeSource := "duration" } (noHeap : Heap V)
    let x3 ← Interval.new x1 (7, 14) none
    let x4 ← x3.countPeriods x1 (⟨none, .D, by decide⟩ : Freq) .any none
    check 283 (decide (x4 = ((8 : Rat) / 3)))
    let (x5, x6) ← Timeboard.new (L := V) { freq := (⟨none, .H, by decide⟩ : Freq), start := (ts 2017 10 1), stop := (ts 2017 10 6), layout := .organizer (.marker { each := (⟨none, .D, by decide⟩ : Freq), ats := [fromStartOfEach (some { hours := 2 }), fromStartOfEach (some { hours := 8 }), fromStartOfEach (some { hours := 18 })] }) [.label (.i 1), .label (.i 0)], selector := V.truthy, defaultLabel := V.none, refEnd := true, worktimeSource := "duration" } x2
    let x7 ← Interval.new x5 (7, 14) none
    let x8 ← x7.countPeriods x5 (⟨none, .D, by decide⟩ : Freq) .any none
    check 286 (decide (x8 = ((8 : Rat) / 3)))
    pure ()) = true := by decide +kernel

/-- timeboard/tests/test_intervals_compound.py 291: `TestIntervalCompoundCountPeriodsWithLocsStraddling.test_ivl_compound_count_periods_straddle_float_left_duty_on`. -/
example : passes (do
    let (x1, x2) ← Timeboard.new (L := V) { freq := (⟨none, .H, by decide⟩ : Freq), start := (ts 2017 10 1), stop := (ts 2017 10 6), layout := .organizer (.marker { each := (⟨none, .D, by decide⟩ : Freq), ats := [fromStartOfEach (some { hours := 2 }), fromStartOfEach (some { hours := 8 }), fromStartOfEach (some { hours := 18 })] }) [.label (.i 1), .label (.i 0)], selector := V.truthy, defaultLabel := V.none, worktimeSource := "duration" } (noHeap : Heap V)
    let x3 ← Interval.new x1 (6, 8) none
    let x4 ← x3.countPeriods x1 (⟨none, .D, by decide⟩ : Freq) .on none
    check 294 (decide (x4 = ((3 : Rat) / 2)))
    let (x5, x6) ← Timeboard.new (L := V) { freq := (⟨none, .H, by decide⟩ : Freq), start := (ts 2017 10 1), stop := (ts 2017 10 6), layout := .organizer (.marker { each := (⟨none, .D, by decide⟩ : Freq), ats := [fromStartOfEach (some { hours := 2 }), fromStartOfEach (some { hours := 8 }), fromStartOfEach (some { hours := 18 })] }) [.label (.i 1), .label (.i 0)], selector := V.truthy, defaultLabel := V.none, refEnd := true, worktimeSource := "duration" } x2
    let x7 ← Interval.new x5 (6, 8) none
    let x8 ← x7.countPeriods x5 (⟨none, .D, by decide⟩ : Freq) .on none
    check 297 (decide (x8 = (1 : Rat)))
    pure ()) = true := by decide +kernel

/-- timeboard/tests/test_intervals_compound.py 299: `TestIntervalCompoundCountPeriodsWithLocsStraddling.test_ivl_compound_count_periods_straddle_float_left_duty_off`. -/
example : passes (do
    let (x1, x2) ← Timeboard.new (L := V) { freq := (⟨none, .H, by decide⟩ : Freq), start := (ts 2017 10 1), stop := (ts 2017 10 6), layout := .organizer (.marker { each := (⟨none, .D, by decide⟩ : Freq), ats := [fromStartOfEach (some { hours := 2 }), fromStartOfEach (some { hours := 8 }), fromStartOfEach (some { hours := 18 })] }) [.label (.i 1), .label (.i 0)], selector := V.truthy, defaultLabel := V.none, worktimeSource := "duration" } (noHeap : Heap V)
    let x3 ← Interval.new x1 (9, 11) none
    let x4 ← x3.countPeriods x1 (⟨none, .D, by decide⟩ : Freq) .off none
    check 302 (decide (x4 = ((3 : Rat) / 2)))
    let (x5, x6) ← Timeboard.new (L := V) { freq := (⟨none, .H, by decide⟩ : Freq), start := (ts 2017 10 1), stop := (ts 2017 10 6), layout := .organizer (.marker { each := (⟨none, .D, by decide⟩ : Freq), ats := [fromStartOfEach (some { hours := 2 }), fromStartOfEach (some { hours := 8 }), fromStartOfEach (some { hours := 18 })] }) [.label (.i 1), .label (.i 0)], selector := V.truthy, defaultLabel := V.none, refEnd := true, worktimeSource := "duration" } x2
    let x7 ← Interval.new x5 (9, 11) none
    let x8 ← x7.countPeriods x5 (⟨none, .D, by decide⟩ : Freq) .off none
    check 305 (decide (x8 = (1 : Rat)))
    pure ()) = true := by decide +kernel

/-- timeboard/tests/test_intervals_compound.py 307: `TestIntervalCompoundCountPeriodsWithLocsStraddling.test_ivl_compound_count_periods_straddle_float_right_duty_on`. -/
example : passes (do
    let (x1, x2) ← Timeboard.new (L := V) { freq := (⟨none, .H, by decide⟩ : Freq), start := (ts 2017 10 1), stop := (ts 2017 10 6), layout := .organizer (.marker { each := (⟨none, .D, by decide⟩ : Freq), ats := [fromStartOfEach (some { hours := 2 }), fromStartOfEach (some { hours := 8 }), fromStartOfEach (some { hours := 18 })] }) [.label (.i 1), .label (.i 0)], selector := V.truthy, defaultLabel := V.none, worktimeSource := "duration" } (noHeap : Heap V)
    let x3 ← Interval.new x1 (4, 6) none
    let x4 ← x3.countPeriods x1 (⟨none, .D, by decide⟩ : Freq) .on none
    check 310 (decide (x4 = (1 : Rat)))
    let (x5, x6) ← Timeboard.new (L := V) { freq := (⟨none, .H, by decide⟩ : Freq), start := (ts 2017 10 1), stop := (ts 2017 10 6), layout := .organizer (.marker { each := (⟨none, .D, by decide⟩ : Freq), ats := [fromStartOfEach (some { hours := 2 }), fromStartOfEach (some { hours := 8 }), fromStartOfEach (some { hours := 18 })] }) [.label (.i 1), .label (.i 0)], selector := V.truthy, defaultLabel := V.none, refEnd := true, worktimeSource := "duration" } x2
    let x7 ← Interval.new x5 (4, 6) none
    let x8 ← x7.countPeriods x5 (⟨none, .D, by decide⟩ : Freq) .on none
    check 313 (decide (x8 = ((3 : Rat) / 2)))
    pure ()) = true := by decide +kernel

/-- timeboard/tests/test_intervals_compound.py 315: `TestIntervalCompoundCountPeriodsWithLocsStraddling.test_ivl_compound_count_periods_straddle_float_right_duty_off`. -/
example : passes (do
    let (x1, x2) ← Timeboard.new (L := V) { freq := (⟨none, .H, by decide⟩ : Freq), start := (ts 2017 10 1), stop := (ts 2017 10 6), layout := .organizer (.marker { each := (⟨none, .D, by decide⟩ : Freq), ats := [fromStartOfEach (some { hours := 2 }), fromStartOfEach (some { hours := 8 }), fromStartOfEach (some { hours := 18 })] }) [.label (.i 1), .label (.i 0)], selector := V.truthy, defaultLabel := V.none, worktimeSource := "duration" } (noHeap : Heap V)
    let x3 ← Interval.new x1 (7, 9) none
    let x4 ← x3.countPeriods x1 (⟨none, .D, by decide⟩ : Freq) .off none
    check 318 (decide (x4 = (1 : Rat)))
    let (x5, x6) ← Timeboard.new (L := V) { freq := (⟨none, .H, by decide⟩ : Freq), start := (ts 2017 10 1), stop := (ts 2017 10 6), layout := .organizer (.marker { each := (⟨none, .D, by decide⟩ : Freq), ats := [fromStartOfEach (some { hours := 2 }), fromStartOfEach (some { hours := 8 }), fromStartOfEach (some { hours := 18 })] }) [.label (.i 1), .label (.i 0)], selector := V.truthy, defaultLabel := V.none, refEnd := true, worktimeSource := "duration" } x2
    let x7 ← Interval.new x5 (7, 9) none
    let x8 ← x7.countPeriods x5 (⟨none, .D, by decide⟩ : Freq) .off none
    check 321 (decide (x8 = ((3 : Rat) / 2)))
    pure ()) = true := by decide +kernel

/-- timeboard/tests/test_intervals_compound.py 323: `TestIntervalCompoundCountPeriodsWithLocsStraddling.test_ivl_compound_count_periods_many_straddle_both_ends_duty_on`. -/
example : passes (do
    let (x1, x2) ← Timeboard.new (L := V) { freq := (⟨none, .H, by decide⟩ : Freq), start := (ts 2017 10 1), stop := (ts 2017 10 6), layout := .organizer (.marker { each := (⟨none, .D, by decide⟩ : Freq), ats := [fromStartOfEach (some { hours := 2 }), fromStartOfEach (some { hours := 8 }), fromStartOfEach (some { hours := 18 })] }) [.label (.i 1), .label (.i 0)], selector := V.truthy, defaultLabel := V.none, worktimeSource := "duration" } (noHeap : Heap V)
    let x3 ← Interval.new x1 (3, 12) none
    let x4 ← x3.countPeriods x1 (⟨none, .D, by decide⟩ : Freq) .on none
    check 326 (decide (x4 = (3 : Rat)))
    let (x5, x6) ← Timeboard.new (L := V) { freq := (⟨none, .H, by decide⟩ : Freq), start := (ts 2017 10 1), stop := (ts 2017 10 6), layout := .organizer (.marker { each := (⟨none, .D, by decide⟩ : Freq), ats := [fromStartOfEach (some { hours := 2 }), fromStartOfEach (some { hours := 8 }), fromStartOfEach (some { hours := 18 })] }) [.label (.i 1), .label (.i 0)], selector := V.truthy, defaultLabel := V.none, refEnd := true, worktimeSource := "duration" } x2
    let x7 ← Interval.new x5 (3, 12) none
    let x8 ← x7.countPeriods x5 (⟨none, .D, by decide⟩ : Freq) .on none
    check 329 (decide (x8 = ((7 : Rat) / 2)))
    pure ()) = true := by decide +kernel

/-- timeboard/tests/test_intervals_compound.py 331: `TestIntervalCompoundCountPeriodsWithLocsStraddling.test_ivl_compound_count_periods_many_straddle_both_ends_duty_off`. -/
example : passes (do
    let (x1, x2) ← Timeboard.new (L := V) { freq := (⟨none, .H, by decide⟩ : Freq), start := (ts 2017 10 1), stop := (ts 2017 10 6), layout := .organizer (.marker { each := (⟨none, .D, by decide⟩ : Freq), ats := [fromStartOfEach (some { hours := 2 }), fromStartOfEach (some { hours := 8 }), fromStartOfEach (some { hours := 18 })] }) [.label (.i 1), .label (.i 0)], selector := V.truthy, defaultLabel := V.none, worktimeSource := "duration" } (noHeap : Heap V)
    let x3 ← Interval.new x1 (3, 12) none
    let x4 ← x3.countPeriods x1 (⟨none, .D, by decide⟩ : Freq) .off none
    check 334 (decide (x4 = ((7 : Rat) / 2)))
    let (x5, x6) ← Timeboard.new (L := V) { freq := (⟨none, .H, by decide⟩ : Freq), start := (ts 2017 10 1), stop := (ts 2017 10 6), layout := .organizer (.marker { each := (⟨none, .D, by decide⟩ : Freq), ats := [fromStartOfEach (some { hours := 2 }), fromStartOfEach (some { hours := 8 }), fromStartOfEach (some { hours := 18 })] }) [.label (.i 1), .label (.i 0)], selector := V.truthy, defaultLabel := V.none, refEnd := true, worktimeSource := "duration" } x2
    let x7 ← Interval.new x5 (3, 12) none
    let x8 ← x7.countPeriods x5 (⟨none, .D, by decide⟩ : Freq) .off none
    check 337 (decide (x8 = (3 : Rat)))
    pure ()) = true := by decide +kernel

/-- timeboard/tests/test_intervals_compound.py 339: `TestIntervalCompoundCountPeriodsWithLocsStraddling.test_ivl_compound_count_periods_many_straddle_both_ends_duty_any`. -/
example : passes (do
    let (x1, x2) ← Timeboard.new (L := V) { freq := (⟨none, .H, by decide⟩ : Freq), start := (ts 2017 10 1), stop := (ts 2017 10 6), layout := .organizer (.marker { each := (⟨none, .D, by decide⟩ : Freq), ats := [fromStartOfEach (some { hours := 2 }), fromStartOfEach (some { hours := 8 }), fromStartOfEach (some { hours := 18 })] }) [.label (.i 1), .label (.i 0)], selector := V.truthy, defaultLabel := V.none, worktimeSource := "duration" } (noHeap : Heap V)
    let x3 ← Interval.new x1 (3, 12) none
    let x4 ← x3.countPeriods x1 (⟨none, .D, by decide⟩ : Freq) .any none
    check 342 (decide (x4 = ((13 : Rat) / 4)))
    let (x5, x6) ← Timeboard.new (L := V) { freq := (⟨none, .H, by decide⟩ : Freq), start := (ts 2017 10 1), stop := (ts 2017 10 6), layout := .organizer (.marker { each := (⟨none, .D, by decide⟩ : Freq), ats := [fromStartOfEach (some { hours := 2 }), fromStartOfEach (some { hours := 8 }), fromStartOfEach (some { hours := 18 })] }) [.label (.i 1), .label (.i 0)], selector := V.truthy, defaultLabel := V.none, refEnd := true, worktimeSource := "duration" } x2
    let x7 ← Interval.new x5 (3, 12) none
    let x8 ← x7.countPeriods x5 (⟨none, .D, by decide⟩ : Freq) .any none
    check 345 (decide (x8 > ((8333 : Rat) / 2500)))
    let x9 ← x7.countPeriods x5 (⟨none, .D, by decide⟩ : Freq) .any none
    check 346 (decide (x9 < ((16667 : Rat) / 5000)))
    pure ()) = true := by decide +kernel

/-- timeboard/tests/test_intervals_compound.py 351: `TestIntervalCompoundCountPeriodsOOB.test_ivl_compound_count_periods_OOB`. -/
example : passes (do
    let (x1, x2) ← Timeboard.new (L := V) { freq := (⟨none, .H, by decide⟩ : Freq), start := (ts 2017 10 1), stop := (ts 2017 10 6), layout := .organizer (.marker { each := (⟨none, .D, by decide⟩ : Freq), ats := [fromStartOfEach (some { hours := 2 }), fromStartOfEach (some { hours := 8 }), fromStartOfEach (some { hours := 18 })] }) [.label (.i 1), .label (.i 0)], selector := V.truthy, defaultLabel := V.none, worktimeSource := "duration" } (noHeap : Heap V)
    let x3 ← Interval.new x1 (0, 2) none
    raises 354 [.partialOutOfBounds] (do
      let x4 ← x3.countPeriods x1 (⟨none, .W none, by decide⟩ : Freq) .on none
      pure ())
    pure ()) = true := by decide +kernel

/-- timeboard/tests/test_intervals_compound.py 357: `TestIntervalCompoundCountPeriodsOOB.test_ivl_compound_count_periods_OOB_floating`. -/
example : passes (do
    let (x1, x2) ← Timeboard.new (L := V) { freq := (⟨none, .H, by decide⟩ : Freq), start := (ts 2017 10 1), stop := (ts 2017 10 6), layout := .organizer (.marker { each := (⟨none, .D, by decide⟩ : Freq), ats := [fromStartOfEach (some { hours := 2 }), fromStartOfEach (some { hours := 8 }), fromStartOfEach (some { hours := 18 })] }) [.label (.i 1), .label (.i 0)], selector := V.truthy, defaultLabel := V.none, worktimeSource := "duration" } (noHeap : Heap V)
    let x3 ← Interval.new x1 (14, 15) none
    let x4 ← x3.countPeriods x1 (⟨none, .D, by decide⟩ : Freq) .off none
    check 360 (decide (x4 = ((1 : Rat) / 2)))
    let (x5, x6) ← Timeboard.new (L := V) { freq := (⟨none, .H, by decide⟩ : Freq), start := (ts 2017 10 1), stop := (ts 2017 10 6), layout := .organizer (.marker { each := (⟨none, .D, by decide⟩ : Freq), ats := [fromStartOfEach (some { hours := 2 }), fromStartOfEach (some { hours := 8 }), fromStartOfEach (some { hours := 18 })] }) [.label (.i 1), .label (.i 0)], selector := V.truthy, defaultLabel := V.none, refEnd := true, worktimeSource := "duration" } x2
    let x7 ← Interval.new x5 (14, 15) none
    raises 363 [.partialOutOfBounds] (do
      let x8 ← x7.countPeriods x5 (⟨none, .D, by decide⟩ : Freq) .off none
      pure ())
    pure ()) = true := by decide +kernel

/-- timeboard/tests/test_intervals_compound.py 369: `TestIntervalCompoundTotalDuration.test_ivl_compound_total_dur`. -/
example : passes (do
    let (x1, x2) ← Timeboard.new (L := V) { freq := (⟨none, .H, by decide⟩ : Freq), start := (ts 2017 10 1), stop := (ts 2017 10 6), layout := .organizer (.marker { each := (⟨none, .D, by decide⟩ : Freq), ats := [fromStartOfEach (some { hours := 2 }), fromStartOfEach (some { hours := 8 }), fromStartOfEach (some { hours := 18 })] }) [.label (.i 1), .label (.i 0)], selector := V.truthy, defaultLabel := V.none, worktimeSource := "duration" } (noHeap : Heap V)
    let x3 ← Interval.new x1 (2, 8) none
    let x4 ← x3.totalDuration x1 .on none
    check 372 (decide (x4 = 34))
    let x5 ← x3.totalDuration x1 .off none
    check 373 (decide (x5 = 24))
    let x6 ← x3.totalDuration x1 .any none
    check 374 (decide (x6 = 58))
    pure ()) = true := by decide +kernel

/-- timeboard/tests/test_intervals_compound.py 376: `TestIntervalCompoundTotalDuration.test_ivl_compound_total_dur_other_schedule`. -/
example : passes (do
    let (x1, x2) ← Timeboard.new (L := V) { freq := (⟨none, .H, by decide⟩ : Freq), start := (ts 2017 10 1), stop := (ts 2017 10 6), layout := .organizer (.marker { each := (⟨none, .D, by decide⟩ : Freq), ats := [fromStartOfEach (some { hours := 2 }), fromStartOfEach (some { hours := 8 }), fromStartOfEach (some { hours := 18 })] }) [.label (.i 1), .label (.i 0)], selector := V.truthy, defaultLabel := V.none, worktimeSource := "duration" } (noHeap : Heap V)
    let (x3, x4) ← x1.addSchedule "other" (fun x => x.gt (1 : Rat))
    let x5 ← Interval.new x4 (2, 8) none
    let x6 ← x5.totalDuration x4 .on (some x3)
    check 380 (decide (x6 = 0))
    let x7 ← x5.totalDuration x4 .off (some x3)
    check 381 (decide (x7 = 58))
    let x8 ← x5.totalDuration x4 .any (some x3)
    check 382 (decide (x8 = 58))
    pure ()) = true := by decide +kernel

/-- timeboard/tests/test_intervals_compound.py 384: `TestIntervalCompoundTotalDuration.test_ivl_compound_total_dur_other_schedule2`. -/
example : passes (do
    let (x1, x2) ← Timeboard.new (L := V) { freq := (⟨none, .H, by decide⟩ : Freq), start := (ts 2017 10 1), stop := (ts 2017 10 6), layout := .organizer (.marker { each := (⟨none, .D, by decide⟩ : Freq), ats := [fromStartOfEach (some { hours := 2 }), fromStartOfEach (some { hours := 8 }), fromStartOfEach (some { hours := 18 })] }) [.label (.i 1), .label (.i 0)], selector := V.truthy, defaultLabel := V.none, worktimeSource := "duration" } (noHeap : Heap V)
    let (x3, x4) ← x1.addSchedule "other" (fun x => x.gt (-1 : Rat))
    let x5 ← Interval.new x4 (2, 8) (some x3)
    let x6 ← x5.totalDuration x4 .on none
    check 388 (decide (x6 = 58))
    let x7 ← x5.totalDuration x4 .off none
    check 389 (decide (x7 = 0))
    let x8 ← x5.totalDuration x4 .any none
    check 390 (decide (x8 = 58))
    pure ()) = true := by decide +kernel

/-- timeboard/tests/test_intervals_compound.py 395: `TestIntervalCompoundWorkTime.test_ivl_compound_worktime_default`. -/
example : passes (do
    let (x1, x2) ← Timeboard.new (L := V) { freq := (⟨none, .H, by decide⟩ : Freq), start := (ts 2017 10 1), stop := (ts 2017 10 6), layout := .organizer (.marker { each := (⟨none, .D, by decide⟩ : Freq), ats := [fromStartOfEach (some { hours := 2 }), fromStartOfEach (some { hours := 8 }), fromStartOfEach (some { hours := 18 })] }) [.label (.i 1), .label (.i 0)], selector := V.truthy, defaultLabel := V.none, worktimeSource := "duration" } (noHeap : Heap V)
    let x3 ← Interval.new x1 (2, 8) none
    let x4 ← x3.worktime x1 V.num? .on none
    check 398 (decide (x4 = (34 : Rat)))
    let x5 ← x3.worktime x1 V.num? .off none
    check 399 (decide (x5 = (24 : Rat)))
    let x6 ← x3.worktime x1 V.num? .any none
    check 400 (decide (x6 = (58 : Rat)))
    pure ()) = true := by decide +kernel

/-- timeboard/tests/test_intervals_compound.py 402: `TestIntervalCompoundWorkTime.test_ivl_compound_worktime_in_labels`. -/
example : passes (do
    let (x1, x2) ← Timeboard.new (L := V) { freq := (⟨none, .H, by decide⟩ : Freq), start := (ts 2017 10 1), stop := (ts 2017 10 6), layout := .organizer (.marker { each := (⟨none, .D, by decide⟩ : Freq), ats := [fromStartOfEach (some { hours := 2 }), fromStartOfEach (some { hours := 8 }), fromStartOfEach (some { hours := 18 })] }) [.label (.i 1), .label (.i 0)], selector := V.truthy, defaultLabel := V.none, worktimeSource := "labels" } (noHeap : Heap V)
    let x3 ← Interval.new x1 (2, 8) none
    let x4 ← x3.worktime x1 V.num? .on none
    check 405 (decide (x4 = (4 : Rat)))
    let x5 ← x3.worktime x1 V.num? .off none
    check 406 (decide (x5 = (0 : Rat)))
    let x6 ← x3.worktime x1 V.num? .any none
    check 407 (decide (x6 = (4 : Rat)))
    pure ()) = true := by decide +kernel

/-- timeboard/tests/test_intervals_compound.py 410: `TestIntervalCompoundWorkTime.test_ivl_compound_worktime_in_labels_other_schedule`. -/
example : passes (do
    let (x1, x2) ← Timeboard.new (L := V) { freq := (⟨none, .H, by decide⟩ : Freq), start := (ts 2017 10 1), stop := (ts 2017 10 6), layout := .organizer (.marker { each := (⟨none, .D, by decide⟩ : Freq), ats := [fromStartOfEach (some { hours := 2 }), fromStartOfEach (some { hours := 8 }), fromStartOfEach (some { hours := 18 })] }) [.label (.i 1), .label (.i 0)], selector := V.truthy, defaultLabel := V.none, worktimeSource := "labels" } (noHeap : Heap V)
    let (x3, x4) ← x1.addSchedule "other" (fun x => x.gt (1 : Rat))
    let x5 ← Interval.new x4 (2, 8) none
    let x6 ← x5.worktime x4 V.num? .on (some x3)
    check 414 (decide (x6 = (0 : Rat)))
    let x7 ← x5.worktime x4 V.num? .off (some x3)
    check 415 (decide (x7 = (4 : Rat)))
    let x8 ← x5.worktime x4 V.num? .any (some x3)
    check 416 (decide (x8 = (4 : Rat)))
    pure ()) = true := by decide +kernel

end TB.Conf
