import Verif.Conformance.Support
/-!
# `timeboard/tests/test_patterns.py`

Generated by `tools/conformance.py`.  One example per unit test: the statements of the test, performed by the
model, succeed.  These are checks of the model on single inputs, not proofs of properties.
-/
set_option linter.unusedVariables false
namespace TB.Conf

/-- timeboard/tests/test_patterns.py 10: `TestSkiperator.test_skiperator_basic`. -/
example : passes (do
    let x1 ← (match skiperatorTake (L := V) (.list [(.i 1), (.i 2), (.i 3)]) 0 1 (noHeap : Heap V) with | some r => item r.1 0 | none => (.error (.inl .attributeError) : C V))
    let x2 ← (match skiperatorTake (L := V) (.list [(.i 1), (.i 2), (.i 3)]) 0 2 (noHeap : Heap V) with | some r => item r.1 1 | none => (.error (.inl .attributeError) : C V))
    let x3 ← (match skiperatorTake (L := V) (.list [(.i 1), (.i 2), (.i 3)]) 0 3 (noHeap : Heap V) with | some r => item r.1 2 | none => (.error (.inl .attributeError) : C V))
    let x4 ← (match skiperatorTake (L := V) (.list [(.i 1), (.i 2), (.i 3)]) 0 4 (noHeap : Heap V) with | some r => item r.1 3 | none => (.error (.inl .attributeError) : C V))
    let x5 ← (match skiperatorTake (L := V) (.list [(.i 1), (.i 2), (.i 3)]) 0 5 (noHeap : Heap V) with | some r => item r.1 4 | none => (.error (.inl .attributeError) : C V))
    let x6 ← (match skiperatorTake (L := V) (.list [(.i 1), (.i 2), (.i 3)]) 0 6 (noHeap : Heap V) with | some r => item r.1 5 | none => (.error (.inl .attributeError) : C V))
    let x7 ← (match skiperatorTake (L := V) (.list [(.i 1), (.i 2), (.i 3)]) 0 7 (noHeap : Heap V) with | some r => item r.1 6 | none => (.error (.inl .attributeError) : C V))
    let x8 ← (match skiperatorTake (L := V) (.list [(.i 1), (.i 2), (.i 3)]) 0 8 (noHeap : Heap V) with | some r => item r.1 7 | none => (.error (.inl .attributeError) : C V))
    let x9 ← (match skiperatorTake (L := V) (.list [(.i 1), (.i 2), (.i 3)]) 0 9 (noHeap : Heap V) with | some r => item r.1 8 | none => (.error (.inl .attributeError) : C V))
    let x10 ← (match skiperatorTake (L := V) (.list [(.i 1), (.i 2), (.i 3)]) 0 10 (noHeap : Heap V) with | some r => item r.1 9 | none => (.error (.inl .attributeError) : C V))
    check 15 ((decide (x1 = (.i 1))) && (decide (x2 = (.i 2))) && (decide (x3 = (.i 3))) && (decide (x4 = (.i 1))) && (decide (x5 = (.i 2))) && (decide (x6 = (.i 3))) && (decide (x7 = (.i 1))) && (decide (x8 = (.i 2))) && (decide (x9 = (.i 3))) && (decide (x10 = (.i 1))))
    pure ()) = true := by decide +kernel

/-- timeboard/tests/test_patterns.py 17: `TestSkiperator.test_skiperator_skip`. -/
example : passes (do
    let x1 ← (match skiperatorTake (L := V) (.list [(.i 1), (.i 2), (.i 3)]) 2 1 (noHeap : Heap V) with | some r => item r.1 0 | none => (.error (.inl .attributeError) : C V))
    let x2 ← (match skiperatorTake (L := V) (.list [(.i 1), (.i 2), (.i 3)]) 2 2 (noHeap : Heap V) with | some r => item r.1 1 | none => (.error (.inl .attributeError) : C V))
    let x3 ← (match skiperatorTake (L := V) (.list [(.i 1), (.i 2), (.i 3)]) 2 3 (noHeap : Heap V) with | some r => item r.1 2 | none => (.error (.inl .attributeError) : C V))
    let x4 ← (match skiperatorTake (L := V) (.list [(.i 1), (.i 2), (.i 3)]) 2 4 (noHeap : Heap V) with | some r => item r.1 3 | none => (.error (.inl .attributeError) : C V))
    let x5 ← (match skiperatorTake (L := V) (.list [(.i 1), (.i 2), (.i 3)]) 2 5 (noHeap : Heap V) with | some r => item r.1 4 | none => (.error (.inl .attributeError) : C V))
    let x6 ← (match skiperatorTake (L := V) (.list [(.i 1), (.i 2), (.i 3)]) 2 6 (noHeap : Heap V) with | some r => item r.1 5 | none => (.error (.inl .attributeError) : C V))
    let x7 ← (match skiperatorTake (L := V) (.list [(.i 1), (.i 2), (.i 3)]) 2 7 (noHeap : Heap V) with | some r => item r.1 6 | none => (.error (.inl .attributeError) : C V))
    let x8 ← (match skiperatorTake (L := V) (.list [(.i 1), (.i 2), (.i 3)]) 2 8 (noHeap : Heap V) with | some r => item r.1 7 | none => (.error (.inl .attributeError) : C V))
    let x9 ← (match skiperatorTake (L := V) (.list [(.i 1), (.i 2), (.i 3)]) 2 9 (noHeap : Heap V) with | some r => item r.1 8 | none => (.error (.inl .attributeError) : C V))
    let x10 ← (match skiperatorTake (L := V) (.list [(.i 1), (.i 2), (.i 3)]) 2 10 (noHeap : Heap V) with | some r => item r.1 9 | none => (.error (.inl .attributeError) : C V))
    check 22 ((decide (x1 = (.i 3))) && (decide (x2 = (.i 1))) && (decide (x3 = (.i 2))) && (decide (x4 = (.i 3))) && (decide (x5 = (.i 1))) && (decide (x6 = (.i 2))) && (decide (x7 = (.i 3))) && (decide (x8 = (.i 1))) && (decide (x9 = (.i 2))) && (decide (x10 = (.i 3))))
    pure ()) = true := by decide +kernel

/-- timeboard/tests/test_patterns.py 24: `TestSkiperator.test_skiperator_skip_more`. -/
example : passes (do
    let x1 ← (match skiperatorTake (L := V) (.list [(.i 1), (.i 2), (.i 3)]) 4 1 (noHeap : Heap V) with | some r => item r.1 0 | none => (.error (.inl .attributeError) : C V))
    let x2 ← (match skiperatorTake (L := V) (.list [(.i 1), (.i 2), (.i 3)]) 4 2 (noHeap : Heap V) with | some r => item r.1 1 | none => (.error (.inl .attributeError) : C V))
    let x3 ← (match skiperatorTake (L := V) (.list [(.i 1), (.i 2), (.i 3)]) 4 3 (noHeap : Heap V) with | some r => item r.1 2 | none => (.error (.inl .attributeError) : C V))
    let x4 ← (match skiperatorTake (L := V) (.list [(.i 1), (.i 2), (.i 3)]) 4 4 (noHeap : Heap V) with | some r => item r.1 3 | none => (.error (.inl .attributeError) : C V))
    let x5 ← (match skiperatorTake (L := V) (.list [(.i 1), (.i 2), (.i 3)]) 4 5 (noHeap : Heap V) with | some r => item r.1 4 | none => (.error (.inl .attributeError) : C V))
    let x6 ← (match skiperatorTake (L := V) (.list [(.i 1), (.i 2), (.i 3)]) 4 6 (noHeap : Heap V) with | some r => item r.1 5 | none => (.error (.inl .attributeError) : C V))
    let x7 ← (match skiperatorTake (L := V) (.list [(.i 1), (.i 2), (.i 3)]) 4 7 (noHeap : Heap V) with | some r => item r.1 6 | none => (.error (.inl .attributeError) : C V))
    let x8 ← (match skiperatorTake (L := V) (.list [(.i 1), (.i 2), (.i 3)]) 4 8 (noHeap : Heap V) with | some r => item r.1 7 | none => (.error (.inl .attributeError) : C V))
    let x9 ← (match skiperatorTake (L := V) (.list [(.i 1), (.i 2), (.i 3)]) 4 9 (noHeap : Heap V) with | some r => item r.1 8 | none => (.error (.inl .attributeError) : C V))
    let x10 ← (match skiperatorTake (L := V) (.list [(.i 1), (.i 2), (.i 3)]) 4 10 (noHeap : Heap V) with | some r => item r.1 9 | none => (.error (.inl .attributeError) : C V))
    check 29 ((decide (x1 = (.i 2))) && (decide (x2 = (.i 3))) && (decide (x3 = (.i 1))) && (decide (x4 = (.i 2))) && (decide (x5 = (.i 3))) && (decide (x6 = (.i 1))) && (decide (x7 = (.i 2))) && (decide (x8 = (.i 3))) && (decide (x9 = (.i 1))) && (decide (x10 = (.i 2))))
    pure ()) = true := by decide +kernel

/-- timeboard/tests/test_patterns.py 31: `TestSkiperator.test_skiperator_one_value`. -/
example : passes (do
    let x1 ← (match skiperatorTake (L := V) (.list [(.i 1)]) 0 1 (noHeap : Heap V) with | some r => item r.1 0 | none => (.error (.inl .attributeError) : C V))
    let x2 ← (match skiperatorTake (L := V) (.list [(.i 1)]) 0 2 (noHeap : Heap V) with | some r => item r.1 1 | none => (.error (.inl .attributeError) : C V))
    let x3 ← (match skiperatorTake (L := V) (.list [(.i 1)]) 0 3 (noHeap : Heap V) with | some r => item r.1 2 | none => (.error (.inl .attributeError) : C V))
    let x4 ← (match skiperatorTake (L := V) (.list [(.i 1)]) 0 4 (noHeap : Heap V) with | some r => item r.1 3 | none => (.error (.inl .attributeError) : C V))
    let x5 ← (match skiperatorTake (L := V) (.list [(.i 1)]) 0 5 (noHeap : Heap V) with | some r => item r.1 4 | none => (.error (.inl .attributeError) : C V))
    let x6 ← (match skiperatorTake (L := V) (.list [(.i 1)]) 0 6 (noHeap : Heap V) with | some r => item r.1 5 | none => (.error (.inl .attributeError) : C V))
    let x7 ← (match skiperatorTake (L := V) (.list [(.i 1)]) 0 7 (noHeap : Heap V) with | some r => item r.1 6 | none => (.error (.inl .attributeError) : C V))
    let x8 ← (match skiperatorTake (L := V) (.list [(.i 1)]) 0 8 (noHeap : Heap V) with | some r => item r.1 7 | none => (.error (.inl .attributeError) : C V))
    let x9 ← (match skiperatorTake (L := V) (.list [(.i 1)]) 0 9 (noHeap : Heap V) with | some r => item r.1 8 | none => (.error (.inl .attributeError) : C V))
    let x10 ← (match skiperatorTake (L := V) (.list [(.i 1)]) 0 10 (noHeap : Heap V) with | some r => item r.1 9 | none => (.error (.inl .attributeError) : C V))
    check 36 ((decide (x1 = (.i 1))) && (decide (x2 = (.i 1))) && (decide (x3 = (.i 1))) && (decide (x4 = (.i 1))) && (decide (x5 = (.i 1))) && (decide (x6 = (.i 1))) && (decide (x7 = (.i 1))) && (decide (x8 = (.i 1))) && (decide (x9 = (.i 1))) && (decide (x10 = (.i 1))))
    pure ()) = true := by decide +kernel

/-- timeboard/tests/test_patterns.py 38: `TestSkiperator.test_skiperator_short`. -/
example : passes (do
    let x1 ← (match skiperatorTake (L := V) (.list [(.i 1), (.i 2), (.i 3)]) 0 1 (noHeap : Heap V) with | some r => item r.1 0 | none => (.error (.inl .attributeError) : C V))
    let x2 ← (match skiperatorTake (L := V) (.list [(.i 1), (.i 2), (.i 3)]) 0 2 (noHeap : Heap V) with | some r => item r.1 1 | none => (.error (.inl .attributeError) : C V))
    check 43 ((decide (x1 = (.i 1))) && (decide (x2 = (.i 2))))
    pure ()) = true := by decide +kernel

/-- timeboard/tests/test_patterns.py 45: `TestSkiperator.test_skiperator_short_skip`. -/
example : passes (do
    let x1 ← (match skiperatorTake (L := V) (.list [(.i 1), (.i 2), (.i 3)]) 2 1 (noHeap : Heap V) with | some r => item r.1 0 | none => (.error (.inl .attributeError) : C V))
    let x2 ← (match skiperatorTake (L := V) (.list [(.i 1), (.i 2), (.i 3)]) 2 2 (noHeap : Heap V) with | some r => item r.1 1 | none => (.error (.inl .attributeError) : C V))
    check 50 ((decide (x1 = (.i 3))) && (decide (x2 = (.i 1))))
    pure ()) = true := by decide +kernel

/-- timeboard/tests/test_patterns.py 52: `TestSkiperator.test_skiperator_skip_negative`. -/
example : passes (do
    let x1 ← (match skiperatorTake (L := V) (.list [(.i 1), (.i 2), (.i 3)]) 0 1 (noHeap : Heap V) with | some r => item r.1 0 | none => (.error (.inl .attributeError) : C V))
    let x2 ← (match skiperatorTake (L := V) (.list [(.i 1), (.i 2), (.i 3)]) 0 2 (noHeap : Heap V) with | some r => item r.1 1 | none => (.error (.inl .attributeError) : C V))
    let x3 ← (match skiperatorTake (L := V) (.list [(.i 1), (.i 2), (.i 3)]) 0 3 (noHeap : Heap V) with | some r => item r.1 2 | none => (.error (.inl .attributeError) : C V))
    let x4 ← (match skiperatorTake (L := V) (.list [(.i 1), (.i 2), (.i 3)]) 0 4 (noHeap : Heap V) with | some r => item r.1 3 | none => (.error (.inl .attributeError) : C V))
    let x5 ← (match skiperatorTake (L := V) (.list [(.i 1), (.i 2), (.i 3)]) 0 5 (noHeap : Heap V) with | some r => item r.1 4 | none => (.error (.inl .attributeError) : C V))
    let x6 ← (match skiperatorTake (L := V) (.list [(.i 1), (.i 2), (.i 3)]) 0 6 (noHeap : Heap V) with | some r => item r.1 5 | none => (.error (.inl .attributeError) : C V))
    let x7 ← (match skiperatorTake (L := V) (.list [(.i 1), (.i 2), (.i 3)]) 0 7 (noHeap : Heap V) with | some r => item r.1 6 | none => (.error (.inl .attributeError) : C V))
    let x8 ← (match skiperatorTake (L := V) (.list [(.i 1), (.i 2), (.i 3)]) 0 8 (noHeap : Heap V) with | some r => item r.1 7 | none => (.error (.inl .attributeError) : C V))
    let x9 ← (match skiperatorTake (L := V) (.list [(.i 1), (.i 2), (.i 3)]) 0 9 (noHeap : Heap V) with | some r => item r.1 8 | none => (.error (.inl .attributeError) : C V))
    let x10 ← (match skiperatorTake (L := V) (.list [(.i 1), (.i 2), (.i 3)]) 0 10 (noHeap : Heap V) with | some r => item r.1 9 | none => (.error (.inl .attributeError) : C V))
    check 58 ((decide (x1 = (.i 1))) && (decide (x2 = (.i 2))) && (decide (x3 = (.i 3))) && (decide (x4 = (.i 1))) && (decide (x5 = (.i 2))) && (decide (x6 = (.i 3))) && (decide (x7 = (.i 1))) && (decide (x8 = (.i 2))) && (decide (x9 = (.i 3))) && (decide (x10 = (.i 1))))
    pure ()) = true := by decide +kernel

/-- timeboard/tests/test_patterns.py 73: `TestTimelineConstructor.test_time_line_constructor`. -/
example : passes (do
    let x1 ← Frame.new (⟨none, .D, by decide⟩ : Freq) (ts 2017 1 1) (ts 2017 1 10)
    let (x2, x3) ← Timeline.new (L := V) x1 none false V.none (noHeap : Heap V)
    check 77 (decide (x2.len = 10))
    check 78 (decide (x2.frame.startTime = x1.startTime))
    check 79 (decide (x2.frame.endTime = x1.endTime))
    check 80 (x2.labels.all (fun l => decide (l = V.none)))
    pure ()) = true := by decide +kernel

/-- timeboard/tests/test_patterns.py 93: `TestApplyPattern.test_apply_pattern_basic`. -/
example : passes (do
    let x1 ← Frame.new (⟨none, .D, by decide⟩ : Freq) (ts 2017 1 1) (ts 2017 1 10)
    let (x2, x3) ← Timeline.new (L := V) x1 none false V.none (noHeap : Heap V)
    let x4 ← applyPattern (L := V) (.list [(.i 1), (.i 2), (.i 3)]) { first := 0, last := ((x2.frame.n : Int) - 1), skipLeft := 0, skipRight := 0 } { (tempArrays V.none : TLState V) with heap := x3 }
    check 97 (decide ((tempLabels x2 x4) = [(.i 1), (.i 2), (.i 3), (.i 1), (.i 2), (.i 3), (.i 1), (.i 2), (.i 3), (.i 1)]))
    pure ()) = true := by decide +kernel

/-- timeboard/tests/test_patterns.py 99: `TestApplyPattern.test_apply_pattern_skip`. -/
example : passes (do
    let x1 ← Frame.new (⟨none, .D, by decide⟩ : Freq) (ts 2017 1 1) (ts 2017 1 10)
    let (x2, x3) ← Timeline.new (L := V) x1 none false V.none (noHeap : Heap V)
    let x4 ← applyPattern (L := V) (.list [(.i 1), (.i 2), (.i 3)]) { first := 0, last := ((x2.frame.n : Int) - 1), skipLeft := 2, skipRight := 0 } { (tempArrays V.none : TLState V) with heap := x3 }
    check 103 (decide ((tempLabels x2 x4) = [(.i 3), (.i 1), (.i 2), (.i 3), (.i 1), (.i 2), (.i 3), (.i 1), (.i 2), (.i 3)]))
    pure ()) = true := by decide +kernel

/-- timeboard/tests/test_patterns.py 105: `TestApplyPattern.test_apply_pattern_as_string_skip`. -/
example : passes (do
    let x1 ← Frame.new (⟨none, .D, by decide⟩ : Freq) (ts 2017 1 1) (ts 2017 1 10)
    let (x2, x3) ← Timeline.new (L := V) x1 none false V.none (noHeap : Heap V)
    let x4 ← applyPattern (L := V) (.list [(.str "1"), (.str "2"), (.str "3")]) { first := 0, last := ((x2.frame.n : Int) - 1), skipLeft := 2, skipRight := 0 } { (tempArrays V.none : TLState V) with heap := x3 }
    check 111 (decide ((tempLabels x2 x4) = [(.str "3"), (.str "1"), (.str "2"), (.str "3"), (.str "1"), (.str "2"), (.str "3"), (.str "1"), (.str "2"), (.str "3")]))
    pure ()) = true := by decide +kernel

/-- timeboard/tests/test_patterns.py 113: `TestApplyPattern.test_apply_pattern_span_skip`. -/
example : passes (do
    let x1 ← Frame.new (⟨none, .D, by decide⟩ : Freq) (ts 2017 1 1) (ts 2017 1 10)
    let (x2, x3) ← Timeline.new (L := V) x1 none false V.none (noHeap : Heap V)
    let x4 ← applyPattern (L := V) (.list [(.i 1), (.i 2), (.i 3)]) { first := 1, last := 6, skipLeft := 2, skipRight := 0 } { (tempArrays V.none : TLState V) with heap := x3 }
    check 117 (decide ((((tempLabels x2 x4).take 7).drop 1) = [(.i 3), (.i 1), (.i 2), (.i 3), (.i 1), (.i 2)]))
    pure ()) = true := by decide +kernel

/-- timeboard/tests/test_patterns.py 119: `TestApplyPattern.test_apply_pattern_double`. -/
example : passes (do
    let x1 ← Frame.new (⟨none, .D, by decide⟩ : Freq) (ts 2017 1 1) (ts 2017 1 10)
    let (x2, x3) ← Timeline.new (L := V) x1 none false V.none (noHeap : Heap V)
    let x4 ← applyPattern (L := V) (.list [(.i 11), (.i 12)]) { first := 0, last := ((x2.frame.n : Int) - 1), skipLeft := 0, skipRight := 0 } { (tempArrays V.none : TLState V) with heap := x3 }
    let x5 ← applyPattern (L := V) (.list [(.i 1), (.i 2), (.i 3)]) { first := 1, last := 6, skipLeft := 2, skipRight := 0 } x4
    check 125 (decide ((tempLabels x2 x5) = [(.i 11), (.i 3), (.i 1), (.i 2), (.i 3), (.i 1), (.i 2), (.i 12), (.i 11), (.i 12)]))
    pure ()) = true := by decide +kernel

/-- timeboard/tests/test_patterns.py 127: `TestApplyPattern.test_apply_pattern_short`. -/
example : passes (do
    let x1 ← Frame.new (⟨none, .D, by decide⟩ : Freq) (ts 2017 1 1) (ts 2017 1 10)
    let (x2, x3) ← Timeline.new (L := V) x1 none false V.none (noHeap : Heap V)
    let x4 ← applyPattern (L := V) (.list [(.i 1)]) { first := 0, last := ((x2.frame.n : Int) - 1), skipLeft := 0, skipRight := 0 } { (tempArrays V.none : TLState V) with heap := x3 }
    check 131 (decide ((tempLabels x2 x4) = [(.i 1), (.i 1), (.i 1), (.i 1), (.i 1), (.i 1), (.i 1), (.i 1), (.i 1), (.i 1)]))
    pure ()) = true := by decide +kernel

/-- timeboard/tests/test_patterns.py 133: `TestApplyPattern.test_apply_pattern_toolong`. -/
example : passes (do
    let x1 ← Frame.new (⟨none, .D, by decide⟩ : Freq) (ts 2017 1 1) (ts 2017 1 10)
    let (x2, x3) ← Timeline.new (L := V) x1 none false V.none (noHeap : Heap V)
    let x4 ← applyPattern (L := V) (.list [(.i 0), (.i 1), (.i 2), (.i 3), (.i 4), (.i 5), (.i 6), (.i 7), (.i 8), (.i 9), (.i 10), (.i 11), (.i 12), (.i 13), (.i 14)]) { first := 0, last := ((x2.frame.n : Int) - 1), skipLeft := 0, skipRight := 0 } { (tempArrays V.none : TLState V) with heap := x3 }
    check 137 (decide ((tempLabels x2 x4) = [(.i 0), (.i 1), (.i 2), (.i 3), (.i 4), (.i 5), (.i 6), (.i 7), (.i 8), (.i 9)]))
    pure ()) = true := by decide +kernel

/-- timeboard/tests/test_patterns.py 139: `TestApplyPattern.test_apply_pattern_toolong_skip`. -/
example : passes (do
    let x1 ← Frame.new (⟨none, .D, by decide⟩ : Freq) (ts 2017 1 1) (ts 2017 1 10)
    let (x2, x3) ← Timeline.new (L := V) x1 none false V.none (noHeap : Heap V)
    let x4 ← applyPattern (L := V) (.list [(.i 0), (.i 1), (.i 2), (.i 3), (.i 4), (.i 5), (.i 6), (.i 7), (.i 8), (.i 9), (.i 10), (.i 11), (.i 12), (.i 13), (.i 14)]) { first := 0, last := ((x2.frame.n : Int) - 1), skipLeft := 3, skipRight := 0 } { (tempArrays V.none : TLState V) with heap := x3 }
    check 143 (decide ((tempLabels x2 x4) = [(.i 3), (.i 4), (.i 5), (.i 6), (.i 7), (.i 8), (.i 9), (.i 10), (.i 11), (.i 12)]))
    pure ()) = true := by decide +kernel

/-- timeboard/tests/test_patterns.py 145: `TestApplyPattern.test_apply_pattern_toolong_skip_more`. -/
example : passes (do
    let x1 ← Frame.new (⟨none, .D, by decide⟩ : Freq) (ts 2017 1 1) (ts 2017 1 10)
    let (x2, x3) ← Timeline.new (L := V) x1 none false V.none (noHeap : Heap V)
    let x4 ← applyPattern (L := V) (.list [(.i 0), (.i 1), (.i 2), (.i 3), (.i 4), (.i 5), (.i 6), (.i 7), (.i 8), (.i 9), (.i 10), (.i 11), (.i 12), (.i 13), (.i 14)]) { first := 0, last := ((x2.frame.n : Int) - 1), skipLeft := 10, skipRight := 0 } { (tempArrays V.none : TLState V) with heap := x3 }
    check 149 (decide ((tempLabels x2 x4) = [(.i 10), (.i 11), (.i 12), (.i 13), (.i 14), (.i 0), (.i 1), (.i 2), (.i 3), (.i 4)]))
    pure ()) = true := by decide +kernel

/-- timeboard/tests/test_patterns.py 151: `TestApplyPattern.test_apply_pattern_empty`. -/
example : passes (do
    let x1 ← Frame.new (⟨none, .D, by decide⟩ : Freq) (ts 2017 1 1) (ts 2017 1 10)
    let (x2, x3) ← Timeline.new (L := V) x1 none false (.i 100) (noHeap : Heap V)
    let x4 ← applyPattern (L := V) (.list []) { first := 0, last := ((x2.frame.n : Int) - 1), skipLeft := 0, skipRight := 0 } { (tempArrays (.i 100) : TLState V) with heap := x3 }
    check 155 (decide ((tempLabels x2 x4) = [(.i 100), (.i 100), (.i 100), (.i 100), (.i 100), (.i 100), (.i 100), (.i 100), (.i 100), (.i 100)]))
    pure ()) = true := by decide +kernel

/-- timeboard/tests/test_patterns.py 163: `TestApplyRememberingPattern.test_apply_pattern_basic`. -/
example : passes (do
    let x1 ← Frame.new (⟨none, .D, by decide⟩ : Freq) (ts 2017 1 1) (ts 2017 1 10)
    let (x2, x3) ← Timeline.new (L := V) x1 none false V.none (((noHeap : Heap V)).set 0 (Cycle.start [(.i 1), (.i 2), (.i 3)]))
    let x4 ← applyPattern (L := V) (.rp 0) { first := 0, last := ((x2.frame.n : Int) - 1), skipLeft := 0, skipRight := 0 } { (tempArrays V.none : TLState V) with heap := x3 }
    check 167 (decide ((tempLabels x2 x4) = [(.i 1), (.i 2), (.i 3), (.i 1), (.i 2), (.i 3), (.i 1), (.i 2), (.i 3), (.i 1)]))
    pure ()) = true := by decide +kernel

/-- timeboard/tests/test_patterns.py 169: `TestApplyRememberingPattern.test_apply_pattern_skip`. -/
example : passes (do
    let x1 ← Frame.new (⟨none, .D, by decide⟩ : Freq) (ts 2017 1 1) (ts 2017 1 10)
    let (x2, x3) ← Timeline.new (L := V) x1 none false V.none (((noHeap : Heap V)).set 0 (Cycle.start [(.i 1), (.i 2), (.i 3)]))
    let x4 ← applyPattern (L := V) (.rp 0) { first := 0, last := ((x2.frame.n : Int) - 1), skipLeft := 2, skipRight := 0 } { (tempArrays V.none : TLState V) with heap := x3 }
    check 173 (decide ((tempLabels x2 x4) = [(.i 3), (.i 1), (.i 2), (.i 3), (.i 1), (.i 2), (.i 3), (.i 1), (.i 2), (.i 3)]))
    pure ()) = true := by decide +kernel

/-- timeboard/tests/test_patterns.py 175: `TestApplyRememberingPattern.test_apply_pattern_span_skip`. -/
example : passes (do
    let x1 ← Frame.new (⟨none, .D, by decide⟩ : Freq) (ts 2017 1 1) (ts 2017 1 10)
    let (x2, x3) ← Timeline.new (L := V) x1 none false V.none (((noHeap : Heap V)).set 0 (Cycle.start [(.i 1), (.i 2), (.i 3)]))
    let x4 ← applyPattern (L := V) (.rp 0) { first := 1, last := 6, skipLeft := 2, skipRight := 0 } { (tempArrays V.none : TLState V) with heap := x3 }
    check 179 (decide ((((tempLabels x2 x4).take 7).drop 1) = [(.i 3), (.i 1), (.i 2), (.i 3), (.i 1), (.i 2)]))
    pure ()) = true := by decide +kernel

/-- timeboard/tests/test_patterns.py 181: `TestApplyRememberingPattern.test_apply_pattern_short`. -/
example : passes (do
    let x1 ← Frame.new (⟨none, .D, by decide⟩ : Freq) (ts 2017 1 1) (ts 2017 1 10)
    let (x2, x3) ← Timeline.new (L := V) x1 none false V.none (((noHeap : Heap V)).set 0 (Cycle.start [(.i 1)]))
    let x4 ← applyPattern (L := V) (.rp 0) { first := 0, last := ((x2.frame.n : Int) - 1), skipLeft := 0, skipRight := 0 } { (tempArrays V.none : TLState V) with heap := x3 }
    check 185 (decide ((tempLabels x2 x4) = [(.i 1), (.i 1), (.i 1), (.i 1), (.i 1), (.i 1), (.i 1), (.i 1), (.i 1), (.i 1)]))
    pure ()) = true := by decide +kernel

/-- timeboard/tests/test_patterns.py 187: `TestApplyRememberingPattern.test_apply_pattern_toolong`. -/
example : passes (do
    let x1 ← Frame.new (⟨none, .D, by decide⟩ : Freq) (ts 2017 1 1) (ts 2017 1 10)
    let (x2, x3) ← Timeline.new (L := V) x1 none false V.none (((noHeap : Heap V)).set 0 (Cycle.start [(.i 0), (.i 1), (.i 2), (.i 3), (.i 4), (.i 5), (.i 6), (.i 7), (.i 8), (.i 9), (.i 10), (.i 11), (.i 12), (.i 13), (.i 14)]))
    let x4 ← applyPattern (L := V) (.rp 0) { first := 0, last := ((x2.frame.n : Int) - 1), skipLeft := 0, skipRight := 0 } { (tempArrays V.none : TLState V) with heap := x3 }
    check 191 (decide ((tempLabels x2 x4) = [(.i 0), (.i 1), (.i 2), (.i 3), (.i 4), (.i 5), (.i 6), (.i 7), (.i 8), (.i 9)]))
    pure ()) = true := by decide +kernel

/-- timeboard/tests/test_patterns.py 193: `TestApplyRememberingPattern.test_apply_pattern_toolong_skip`. -/
example : passes (do
    let x1 ← Frame.new (⟨none, .D, by decide⟩ : Freq) (ts 2017 1 1) (ts 2017 1 10)
    let (x2, x3) ← Timeline.new (L := V) x1 none false V.none (((noHeap : Heap V)).set 0 (Cycle.start [(.i 0), (.i 1), (.i 2), (.i 3), (.i 4), (.i 5), (.i 6), (.i 7), (.i 8), (.i 9), (.i 10), (.i 11), (.i 12), (.i 13), (.i 14)]))
    let x4 ← applyPattern (L := V) (.rp 0) { first := 0, last := ((x2.frame.n : Int) - 1), skipLeft := 3, skipRight := 0 } { (tempArrays V.none : TLState V) with heap := x3 }
    check 197 (decide ((tempLabels x2 x4) = [(.i 3), (.i 4), (.i 5), (.i 6), (.i 7), (.i 8), (.i 9), (.i 10), (.i 11), (.i 12)]))
    pure ()) = true := by decide +kernel

/-- timeboard/tests/test_patterns.py 199: `TestApplyRememberingPattern.test_apply_pattern_toolong_skip_more`. -/
example : passes (do
    let x1 ← Frame.new (⟨none, .D, by decide⟩ : Freq) (ts 2017 1 1) (ts 2017 1 10)
    let (x2, x3) ← Timeline.new (L := V) x1 none false V.none (((noHeap : Heap V)).set 0 (Cycle.start [(.i 0), (.i 1), (.i 2), (.i 3), (.i 4), (.i 5), (.i 6), (.i 7), (.i 8), (.i 9), (.i 10), (.i 11), (.i 12), (.i 13), (.i 14)]))
    let x4 ← applyPattern (L := V) (.rp 0) { first := 0, last := ((x2.frame.n : Int) - 1), skipLeft := 10, skipRight := 0 } { (tempArrays V.none : TLState V) with heap := x3 }
    check 203 (decide ((tempLabels x2 x4) = [(.i 10), (.i 11), (.i 12), (.i 13), (.i 14), (.i 0), (.i 1), (.i 2), (.i 3), (.i 4)]))
    pure ()) = true := by decide +kernel

/-- timeboard/tests/test_patterns.py 205: `TestApplyRememberingPattern.test_apply_pattern_empty`. -/
example : passes (do
    let x1 ← Frame.new (⟨none, .D, by decide⟩ : Freq) (ts 2017 1 1) (ts 2017 1 10)
    let (x2, x3) ← Timeline.new (L := V) x1 none false (.i 100) (((noHeap : Heap V)).set 0 (Cycle.start []))
    let x4 ← applyPattern (L := V) (.rp 0) { first := 0, last := ((x2.frame.n : Int) - 1), skipLeft := 0, skipRight := 0 } { (tempArrays (.i 100) : TLState V) with heap := x3 }
    check 209 (decide ((tempLabels x2 x4) = [(.i 100), (.i 100), (.i 100), (.i 100), (.i 100), (.i 100), (.i 100), (.i 100), (.i 100), (.i 100)]))
    pure ()) = true := by decide +kernel

/-- timeboard/tests/test_patterns.py 211: `TestApplyRememberingPattern.test_apply_pattern_with_memory`. -/
example : passes (do
    let x1 ← Frame.new (⟨none, .D, by decide⟩ : Freq) (ts 2017 1 1) (ts 2017 1 10)
    let (x2, x3) ← Timeline.new (L := V) x1 none false V.none (((noHeap : Heap V)).set 0 (Cycle.start [(.i 0), (.i 1)]))
    let x4 ← applyPattern (L := V) (.rp 0) { first := 0, last := 4, skipLeft := 0, skipRight := 0 } { (tempArrays V.none : TLState V) with heap := x3 }
    let x5 ← applyPattern (L := V) (.list [(.i 9)]) { first := 5, last := 6, skipLeft := 0, skipRight := 0 } x4
    let x6 ← applyPattern (L := V) (.rp 0) { first := 7, last := 9, skipLeft := 0, skipRight := 0 } x5
    check 217 (decide ((tempLabels x2 x6) = [(.i 0), (.i 1), (.i 0), (.i 1), (.i 0), (.i 9), (.i 9), (.i 1), (.i 0), (.i 1)]))
    pure ()) = true := by decide +kernel

/-- timeboard/tests/test_patterns.py 219: `TestApplyRememberingPattern.test_apply_pattern_with_memory_long`. -/
example : passes (do
    let x1 ← Frame.new (⟨none, .D, by decide⟩ : Freq) (ts 2017 1 1) (ts 2017 1 10)
    let (x2, x3) ← Timeline.new (L := V) x1 none false V.none (((noHeap : Heap V)).set 0 (Cycle.start [(.i 0), (.i 1), (.i 2), (.i 3), (.i 4), (.i 5)]))
    let x4 ← applyPattern (L := V) (.rp 0) { first := 0, last := 4, skipLeft := 0, skipRight := 0 } { (tempArrays V.none : TLState V) with heap := x3 }
    let x5 ← applyPattern (L := V) (.list [(.i 9)]) { first := 5, last := 6, skipLeft := 0, skipRight := 0 } x4
    let x6 ← applyPattern (L := V) (.rp 0) { first := 7, last := 9, skipLeft := 0, skipRight := 0 } x5
    check 225 (decide ((tempLabels x2 x6) = [(.i 0), (.i 1), (.i 2), (.i 3), (.i 4), (.i 9), (.i 9), (.i 5), (.i 0), (.i 1)]))
    pure ()) = true := by decide +kernel

/-- timeboard/tests/test_patterns.py 227: `TestApplyRememberingPattern.test_apply_pattern_with_memory_skip`. -/
example : passes (do
    let x1 ← Frame.new (⟨none, .D, by decide⟩ : Freq) (ts 2017 1 1) (ts 2017 1 10)
    let (x2, x3) ← Timeline.new (L := V) x1 none false V.none (((noHeap : Heap V)).set 0 (Cycle.start [(.i 0), (.i 1)]))
    let x4 ← applyPattern (L := V) (.rp 0) { first := 0, last := 4, skipLeft := 3, skipRight := 0 } { (tempArrays V.none : TLState V) with heap := x3 }
    let x5 ← applyPattern (L := V) (.list [(.i 9)]) { first := 5, last := 6, skipLeft := 0, skipRight := 0 } x4
    let x6 ← applyPattern (L := V) (.rp 0) { first := 7, last := 9, skipLeft := 0, skipRight := 0 } x5
    check 233 (decide ((tempLabels x2 x6) = [(.i 1), (.i 0), (.i 1), (.i 0), (.i 1), (.i 9), (.i 9), (.i 0), (.i 1), (.i 0)]))
    pure ()) = true := by decide +kernel

/-- timeboard/tests/test_patterns.py 235: `TestApplyRememberingPattern.test_apply_pattern_with_memory_skip_long`. -/
example : passes (do
    let x1 ← Frame.new (⟨none, .D, by decide⟩ : Freq) (ts 2017 1 1) (ts 2017 1 10)
    let (x2, x3) ← Timeline.new (L := V) x1 none false V.none (((noHeap : Heap V)).set 0 (Cycle.start [(.i 0), (.i 1), (.i 2), (.i 3), (.i 4), (.i 5)]))
    let x4 ← applyPattern (L := V) (.rp 0) { first := 0, last := 4, skipLeft := 3, skipRight := 0 } { (tempArrays V.none : TLState V) with heap := x3 }
    let x5 ← applyPattern (L := V) (.list [(.i 9)]) { first := 5, last := 6, skipLeft := 0, skipRight := 0 } x4
    let x6 ← applyPattern (L := V) (.list [(.i 9)]) { first := 5, last := 6, skipLeft := 0, skipRight := 0 } x5
    let x7 ← applyPattern (L := V) (.rp 0) { first := 7, last := 9, skipLeft := 0, skipRight := 0 } x6
    check 242 (decide ((tempLabels x2 x7) = [(.i 3), (.i 4), (.i 5), (.i 0), (.i 1), (.i 9), (.i 9), (.i 2), (.i 3), (.i 4)]))
    pure ()) = true := by decide +kernel

/-- timeboard/tests/test_patterns.py 244: `TestApplyRememberingPattern.test_apply_pattern_with_memory_skip_2`. -/
example : passes (do
    let x1 ← Frame.new (⟨none, .D, by decide⟩ : Freq) (ts 2017 1 1) (ts 2017 1 10)
    let (x2, x3) ← Timeline.new (L := V) x1 none false V.none (((noHeap : Heap V)).set 0 (Cycle.start [(.i 0), (.i 1), (.i 2), (.i 3), (.i 4), (.i 5)]))
    let x4 ← applyPattern (L := V) (.rp 0) { first := 0, last := 4, skipLeft := 3, skipRight := 0 } { (tempArrays V.none : TLState V) with heap := x3 }
    let x5 ← applyPattern (L := V) (.list [(.i 9)]) { first := 5, last := 6, skipLeft := 0, skipRight := 0 } x4
    let x6 ← applyPattern (L := V) (.rp 0) { first := 7, last := 9, skipLeft := 2, skipRight := 0 } x5
    check 252 (decide ((tempLabels x2 x6) = [(.i 3), (.i 4), (.i 5), (.i 0), (.i 1), (.i 9), (.i 9), (.i 4), (.i 5), (.i 0)]))
    pure ()) = true := by decide +kernel

end TB.Conf
