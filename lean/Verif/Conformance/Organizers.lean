import Verif.Conformance.Support
/-!
# `timeboard/tests/test_organizers.py`

Generated by `tools/conformance.py`.  One example per unit test: the statements of the test, performed by the
model, succeed.  These are checks of the model on single inputs, not proofs of properties.
-/
set_option linter.unusedVariables false
namespace TB.Conf

/-- timeboard/tests/test_organizers.py 46: `TestOrganizeSimple.test_organize_trivial`. -/
example : passes (do
    let x1 ← Frame.new (⟨none, .D, by decide⟩ : Freq) (ts 2017 1 1) (ts 2017 1 10)
    let (x2, x3) ← Timeline.new (L := V) x1 (some (.organizer (.marks []) [.pattern (.list [(.i 1), (.i 2), (.i 3)])])) false V.none (noHeap : Heap V)
    check 50 (decide (x2.labels = [(.i 1), (.i 2), (.i 3), (.i 1), (.i 2), (.i 3), (.i 1), (.i 2), (.i 3), (.i 1)]))
    pure ()) = true := by decide +kernel

/-- timeboard/tests/test_organizers.py 52: `TestOrganizeSimple.test_organize_trivial_string_are_labels`. -/
example : passes (do
    let x1 ← Frame.new (⟨none, .D, by decide⟩ : Freq) (ts 2017 1 1) (ts 2017 1 10)
    let (x2, x3) ← Timeline.new (L := V) x1 (some (.organizer (.marks []) [.pattern (.list [(.str "ab"), (.str "cd"), (.str "ef")])])) false V.none (noHeap : Heap V)
    check 56 (decide (x2.labels = [(.str "ab"), (.str "cd"), (.str "ef"), (.str "ab"), (.str "cd"), (.str "ef"), (.str "ab"), (.str "cd"), (.str "ef"), (.str "ab")]))
    pure ()) = true := by decide +kernel

/-- timeboard/tests/test_organizers.py 59: `TestOrganizeSimple.test_organize_one_mark`. -/
example : passes (do
    let x1 ← Frame.new (⟨none, .D, by decide⟩ : Freq) (ts 2017 1 1) (ts 2017 1 10)
    let (x2, x3) ← Timeline.new (L := V) x1 (some (.organizer (.marks [(ts 2017 1 5)]) [.pattern (.list [(.i 1), (.i 2), (.i 3)]), .pattern (.list [(.i 11), (.i 12)])])) false V.none (noHeap : Heap V)
    check 64 (decide (x2.labels = [(.i 1), (.i 2), (.i 3), (.i 1), (.i 11), (.i 12), (.i 11), (.i 12), (.i 11), (.i 12)]))
    pure ()) = true := by decide +kernel

/-- timeboard/tests/test_organizers.py 66: `TestOrganizeSimple.test_organize_one_mark_as_single_value`. -/
example : passes (do
    let x1 ← Frame.new (⟨none, .D, by decide⟩ : Freq) (ts 2017 1 1) (ts 2017 1 10)
    let (x2, x3) ← Timeline.new (L := V) x1 (some (.organizer (.marks [(ts 2017 1 5)]) [.pattern (.list [(.i 1), (.i 2), (.i 3)]), .pattern (.list [(.i 11), (.i 12)])])) false V.none (noHeap : Heap V)
    check 71 (decide (x2.labels = [(.i 1), (.i 2), (.i 3), (.i 1), (.i 11), (.i 12), (.i 11), (.i 12), (.i 11), (.i 12)]))
    pure ()) = true := by decide +kernel

/-- timeboard/tests/test_organizers.py 73: `TestOrganizeSimple.test_organize_one_mark_cycle_structures`. -/
example : passes (do
    let x1 ← Frame.new (⟨none, .D, by decide⟩ : Freq) (ts 2017 1 1) (ts 2017 1 10)
    let (x2, x3) ← Timeline.new (L := V) x1 (some (.organizer (.marks [(ts 2017 1 5)]) [.pattern (.list [(.i 1), (.i 2), (.i 3)])])) false V.none (noHeap : Heap V)
    check 78 (decide (x2.labels = [(.i 1), (.i 2), (.i 3), (.i 1), (.i 1), (.i 2), (.i 3), (.i 1), (.i 2), (.i 3)]))
    pure ()) = true := by decide +kernel

/-- timeboard/tests/test_organizers.py 80: `TestOrganizeSimple.test_organize_simple_marker`. -/
example : passes (do
    let x1 ← Frame.new (⟨none, .D, by decide⟩ : Freq) (ts 2017 1 1) (ts 2017 1 10)
    let (x2, x3) ← Timeline.new (L := V) x1 (some (.organizer (.marker { each := (⟨none, .W none, by decide⟩ : Freq), ats := [] }) [.pattern (.list [(.i 1), (.i 2), (.i 3)]), .pattern (.list [(.i 11), (.i 12)])])) false V.none (noHeap : Heap V)
    check 84 (decide (x2.labels = [(.i 1), (.i 11), (.i 12), (.i 11), (.i 12), (.i 11), (.i 12), (.i 11), (.i 1), (.i 2)]))
    pure ()) = true := by decide +kernel

/-- timeboard/tests/test_organizers.py 86: `TestOrganizeSimple.test_organize_simple_marker_cycle_structures`. -/
example : passes (do
    let x1 ← Frame.new (⟨none, .D, by decide⟩ : Freq) (ts 2017 1 1) (ts 2017 1 10)
    let (x2, x3) ← Timeline.new (L := V) x1 (some (.organizer (.marker { each := (⟨none, .W none, by decide⟩ : Freq), ats := [] }) [.pattern (.list [(.i 1), (.i 2), (.i 3)])])) false V.none (noHeap : Heap V)
    check 90 (decide (x2.labels = [(.i 1), (.i 1), (.i 2), (.i 3), (.i 1), (.i 2), (.i 3), (.i 1), (.i 1), (.i 2)]))
    pure ()) = true := by decide +kernel

/-- timeboard/tests/test_organizers.py 92: `TestOrganizeSimple.test_organize_marks_outside`. -/
example : passes (do
    let x1 ← Frame.new (⟨none, .D, by decide⟩ : Freq) (ts 2017 1 1) (ts 2017 1 10)
    let (x2, x3) ← Timeline.new (L := V) x1 (some (.organizer (.marks [(ts 2017 1 20)]) [.pattern (.list [(.i 1), (.i 2), (.i 3)])])) false V.none (noHeap : Heap V)
    check 96 (decide (x2.labels = [(.i 1), (.i 2), (.i 3), (.i 1), (.i 2), (.i 3), (.i 1), (.i 2), (.i 3), (.i 1)]))
    pure ()) = true := by decide +kernel

/-- timeboard/tests/test_organizers.py 98: `TestOrganizeSimple.test_organize_marker_outside`. -/
example : passes (do
    let x1 ← Frame.new (⟨none, .D, by decide⟩ : Freq) (ts 2017 1 1) (ts 2017 1 10)
    let (x2, x3) ← Timeline.new (L := V) x1 (some (.organizer (.marker { each := (⟨none, .M, by decide⟩ : Freq), ats := [] }) [.pattern (.list [(.i 1), (.i 2), (.i 3)])])) false V.none (noHeap : Heap V)
    check 102 (decide (x2.labels = [(.i 1), (.i 2), (.i 3), (.i 1), (.i 2), (.i 3), (.i 1), (.i 2), (.i 3), (.i 1)]))
    pure ()) = true := by decide +kernel

/-- timeboard/tests/test_organizers.py 104: `TestOrganizeSimple.test_organize_pattern_with_memory`. -/
example : passes (do
    let x1 ← Frame.new (⟨none, .D, by decide⟩ : Freq) (ts 2017 1 2) (ts 2017 1 22)
    let (x2, x3) ← Timeline.new (L := V) x1 (some (.organizer (.marker { each := (⟨none, .W none, by decide⟩ : Freq), ats := [] }) [.pattern (.rp 0), .pattern (.list [(.i 9)]), .pattern (.rp 0)])) false V.none (((noHeap : Heap V)).set 0 (Cycle.start [(.i 1), (.i 2), (.i 3)]))
    check 110 (decide (x2.labels = [(.i 1), (.i 2), (.i 3), (.i 1), (.i 2), (.i 3), (.i 1), (.i 9), (.i 9), (.i 9), (.i 9), (.i 9), (.i 9), (.i 9), (.i 2), (.i 3), (.i 1), (.i 2), (.i 3), (.i 1), (.i 2)]))
    pure ()) = true := by decide +kernel

/-- timeboard/tests/test_organizers.py 117: `TestOrganizeRecursive.test_organize_recursive_mixed`. -/
example : passes (do
    let x1 ← Frame.new (⟨none, .D, by decide⟩ : Freq) (ts 2017 1 1) (ts 2017 1 10)
    let (x2, x3) ← Timeline.new (L := V) x1 (some (.organizer (.marks [(ts 2017 1 6)]) [.organizer (.marker { each := (⟨none, .W none, by decide⟩ : Freq), ats := [] }) [.pattern (.list [(.i 1), (.i 2), (.i 3)])], .pattern (.list [(.i 11), (.i 12)])])) false V.none (noHeap : Heap V)
    check 123 (decide (x2.labels = [(.i 1), (.i 1), (.i 2), (.i 3), (.i 1), (.i 11), (.i 12), (.i 11), (.i 12), (.i 11)]))
    pure ()) = true := by decide +kernel

/-- timeboard/tests/test_organizers.py 125: `TestOrganizeRecursive.test_organize_recursive_2org`. -/
example : passes (do
    let x1 ← Frame.new (⟨none, .D, by decide⟩ : Freq) (ts 2016 12 27) (ts 2017 1 5)
    let (x2, x3) ← Timeline.new (L := V) x1 (some (.organizer (.marker { each := (⟨none, .M, by decide⟩ : Freq), ats := [] }) [.organizer (.marks [(ts 2016 12 30)]) [.pattern (.list [(.str "a"), (.str "b")]), .pattern (.list [(.str "x")])], .organizer (.marker { each := (⟨none, .W none, by decide⟩ : Freq), ats := [] }) [.pattern (.list [(.i 1), (.i 2), (.i 3)])]])) false V.none (noHeap : Heap V)
    check 133 (decide (x2.labels = [(.str "a"), (.str "b"), (.str "a"), (.str "x"), (.str "x"), (.i 1), (.i 1), (.i 2), (.i 3), (.i 1)]))
    pure ()) = true := by decide +kernel

/-- timeboard/tests/test_organizers.py 135: `TestOrganizeRecursive.test_organize_recursive_cycled_org`. -/
example : passes (do
    let x1 ← Frame.new (⟨none, .D, by decide⟩ : Freq) (ts 2016 12 27) (ts 2017 1 5)
    let (x2, x3) ← Timeline.new (L := V) x1 (some (.organizer (.marker { each := (⟨none, .M, by decide⟩ : Freq), ats := [] }) [.organizer (.marker { each := (⟨none, .W none, by decide⟩ : Freq), ats := [] }) [.pattern (.list [(.i 1), (.i 2), (.i 3)])]])) false V.none (noHeap : Heap V)
    check 140 (decide (x2.labels = [(.i 2), (.i 3), (.i 1), (.i 2), (.i 3), (.i 1), (.i 1), (.i 2), (.i 3), (.i 1)]))
    pure ()) = true := by decide +kernel

/-- timeboard/tests/test_organizers.py 142: `TestOrganizeRecursive.test_organize_recursive_with_memory`. -/
example : passes (do
    let x1 ← Frame.new (⟨none, .D, by decide⟩ : Freq) (ts 2017 11 29) (ts 2017 12 6)
    let (x2, x3) ← Timeline.new (L := V) x1 (some (.organizer (.marker { each := (⟨none, .M, by decide⟩ : Freq), ats := [] }) [.pattern (.rp 0), .organizer (.marker { each := (⟨none, .W none, by decide⟩ : Freq), ats := [] }) [.pattern (.list [(.i 1), (.i 2)]), .pattern (.rp 0)]])) false V.none (((noHeap : Heap V)).set 0 (Cycle.start [(.str "a"), (.str "b"), (.str "c"), (.str "d")]))
    check 148 (decide (x2.labels = [(.str "a"), (.str "b"), (.i 1), (.i 2), (.i 1), (.str "c"), (.str "d"), (.str "a")]))
    pure ()) = true := by decide +kernel

/-- timeboard/tests/test_organizers.py 150: `TestOrganizeRecursive.test_organize_recursive_complex`. -/
example : passes (do
    let x1 ← Frame.new (⟨none, .D, by decide⟩ : Freq) (ts 2016 12 27) (ts 2017 2 1)
    let (x2, x3) ← Timeline.new (L := V) x1 (some (.organizer (.marker { each := (⟨none, .A none, by decide⟩ : Freq), ats := [] }) [.organizer (.marks []) [.pattern (.list [(.str "d"), (.str "e"), (.str "c")])], .organizer (.marker { each := (⟨none, .M, by decide⟩ : Freq), ats := [] }) [.organizer (.marks [(ts 2017 1 6)]) [.organizer (.marker { each := (⟨none, .W none, by decide⟩ : Freq), ats := [] }) [.pattern (.list [(.i 1), (.i 2), (.i 3)])], .pattern (.list [(.str "z")])], .organizer (.marker { each := (⟨none, .W none, by decide⟩ : Freq), ats := [] }) [.pattern (.list [(.i 1), (.i 2), (.i 3)])]]])) false V.none (noHeap : Heap V)
    check 171 (decide (x2.labels = [(.str "d"), (.str "e"), (.str "c"), (.str "d"), (.str "e"), (.i 1), (.i 1), (.i 2), (.i 3), (.i 1), (.str "z"), (.str "z"), (.str "z"), (.str "z"), (.str "z"), (.str "z"), (.str "z"), (.str "z"), (.str "z"), (.str "z"), (.str "z"), (.str "z"), (.str "z"), (.str "z"), (.str "z"), (.str "z"), (.str "z"), (.str "z"), (.str "z"), (.str "z"), (.str "z"), (.str "z"), (.str "z"), (.str "z"), (.str "z"), (.str "z"), (.i 3)]))
    pure ()) = true := by decide +kernel

/-- timeboard/tests/test_organizers.py 176: `TestOrganizeVariousTypesOfStructure.test_organize_with_empty_structure`. -/
example : passes (do
    let x1 ← Frame.new (⟨none, .D, by decide⟩ : Freq) (ts 2017 10 2) (ts 2017 10 4 23 59)
    let (x2, x3) ← Timeline.new (L := V) x1 (some (.organizer (.marker { each := (⟨none, .W none, by decide⟩ : Freq), ats := [] }) [])) false (.i 0) (noHeap : Heap V)
    check 181 (decide (x2.labels = [(.i 0), (.i 0), (.i 0)]))
    pure ()) = true := by decide +kernel

/-- timeboard/tests/test_organizers.py 183: `TestOrganizeVariousTypesOfStructure.test_organize_with_empty_pattern_in_structure`. -/
example : passes (do
    let x1 ← Frame.new (⟨none, .D, by decide⟩ : Freq) (ts 2017 10 1) (ts 2017 10 10)
    let (x2, x3) ← Timeline.new (L := V) x1 (some (.organizer (.marker { each := (⟨none, .W none, by decide⟩ : Freq), ats := [] }) [.pattern (.list [(.i 1), (.i 2)]), .pattern (.list [])])) false (.i 0) (noHeap : Heap V)
    check 188 (decide (x2.labels = [(.i 1), (.i 0), (.i 0), (.i 0), (.i 0), (.i 0), (.i 0), (.i 0), (.i 1), (.i 2)]))
    pure ()) = true := by decide +kernel

/-- timeboard/tests/test_organizers.py 190: `TestOrganizeVariousTypesOfStructure.test_organize_structure_as_rememberingpattern`. -/
example : passes (do
    let x1 ← Frame.new (⟨none, .H, by decide⟩ : Freq) (ts 2017 10 2) (ts 2017 10 4 23 59)
    let (x2, x3) ← Timeline.new (L := V) x1 (some (.organizerRP (.marker { each := (⟨none, .D, by decide⟩ : Freq), ats := [] }) 0)) false (.i 0) (((noHeap : Heap V)).set 0 (Cycle.start [(.i 1), (.i 2)]))
    check 195 (decide (x2.labels = [(.i 1), (.i 2), (.i 1)]))
    pure ()) = true := by decide +kernel

/-- timeboard/tests/test_organizers.py 197: `TestOrganizeVariousTypesOfStructure.test_organize_structure_as_empty_rememberingpattern`. -/
example : passes (do
    let x1 ← Frame.new (⟨none, .H, by decide⟩ : Freq) (ts 2017 10 2) (ts 2017 10 4 23 59)
    let (x2, x3) ← Timeline.new (L := V) x1 (some (.organizerRP (.marker { each := (⟨none, .D, by decide⟩ : Freq), ats := [] }) 0)) false (.i 0) (((noHeap : Heap V)).set 0 (Cycle.start []))
    check 202 (decide (x2.labels = [(.i 0), (.i 0), (.i 0), (.i 0), (.i 0), (.i 0), (.i 0), (.i 0), (.i 0), (.i 0), (.i 0), (.i 0), (.i 0), (.i 0), (.i 0), (.i 0), (.i 0), (.i 0), (.i 0), (.i 0), (.i 0), (.i 0), (.i 0), (.i 0), (.i 0), (.i 0), (.i 0), (.i 0), (.i 0), (.i 0), (.i 0), (.i 0), (.i 0), (.i 0), (.i 0), (.i 0), (.i 0), (.i 0), (.i 0), (.i 0), (.i 0), (.i 0), (.i 0), (.i 0), (.i 0), (.i 0), (.i 0), (.i 0), (.i 0), (.i 0), (.i 0), (.i 0), (.i 0), (.i 0), (.i 0), (.i 0), (.i 0), (.i 0), (.i 0), (.i 0), (.i 0), (.i 0), (.i 0), (.i 0), (.i 0), (.i 0), (.i 0), (.i 0), (.i 0), (.i 0), (.i 0), (.i 0)]))
    pure ()) = true := by decide +kernel

/-- timeboard/tests/test_organizers.py 204: `TestOrganizeVariousTypesOfStructure.test_organize_structure_element_as_rememberingpattern`. -/
example : passes (do
    let x1 ← Frame.new (⟨none, .D, by decide⟩ : Freq) (ts 2017 10 2) (ts 2017 10 4 23 59)
    let (x2, x3) ← Timeline.new (L := V) x1 (some (.organizer (.marker { each := (⟨none, .W none, by decide⟩ : Freq), ats := [] }) [.pattern (.rp 0)])) false (.i 0) (((noHeap : Heap V)).set 0 (Cycle.start [(.i 1), (.i 2)]))
    check 209 (decide (x2.labels = [(.i 1), (.i 2), (.i 1)]))
    pure ()) = true := by decide +kernel

/-- timeboard/tests/test_organizers.py 211: `TestOrganizeVariousTypesOfStructure.test_organize_structure_element_as_empty_rememberingpattern`. -/
example : passes (do
    let x1 ← Frame.new (⟨none, .D, by decide⟩ : Freq) (ts 2017 10 2) (ts 2017 10 4 23 59)
    let (x2, x3) ← Timeline.new (L := V) x1 (some (.organizer (.marker { each := (⟨none, .W none, by decide⟩ : Freq), ats := [] }) [.pattern (.rp 0)])) false (.i 0) (((noHeap : Heap V)).set 0 (Cycle.start []))
    check 216 (decide (x2.labels = [(.i 0), (.i 0), (.i 0)]))
    pure ()) = true := by decide +kernel

/-- timeboard/tests/test_organizers.py 218: `TestOrganizeVariousTypesOfStructure.test_organize_structure_as_generator`. -/
example : passes (do
    let x1 ← Frame.new (⟨none, .H, by decide⟩ : Freq) (ts 2017 10 2) (ts 2017 10 4 23 59)
    let (x2, x3) ← Timeline.new (L := V) x1 (some (.organizerRP (.marker { each := (⟨none, .D, by decide⟩ : Freq), ats := [] }) 0)) false (.i 0) (((noHeap : Heap V)).set 0 (Cycle.start [(.i 1), (.i 2)]))
    check 223 (decide (x2.labels = [(.i 1), (.i 2), (.i 1)]))
    pure ()) = true := by decide +kernel

/-- timeboard/tests/test_organizers.py 225: `TestOrganizeVariousTypesOfStructure.test_organize_structure_as_empty_generator`. -/
example : passes (do
    let x1 ← Frame.new (⟨none, .H, by decide⟩ : Freq) (ts 2017 10 2) (ts 2017 10 4 23 59)
    let (x2, x3) ← Timeline.new (L := V) x1 (some (.organizerRP (.marker { each := (⟨none, .D, by decide⟩ : Freq), ats := [] }) 0)) false (.i 0) (((noHeap : Heap V)).set 0 (Cycle.start []))
    check 230 (decide (x2.labels = [(.i 0), (.i 0), (.i 0), (.i 0), (.i 0), (.i 0), (.i 0), (.i 0), (.i 0), (.i 0), (.i 0), (.i 0), (.i 0), (.i 0), (.i 0), (.i 0), (.i 0), (.i 0), (.i 0), (.i 0), (.i 0), (.i 0), (.i 0), (.i 0), (.i 0), (.i 0), (.i 0), (.i 0), (.i 0), (.i 0), (.i 0), (.i 0), (.i 0), (.i 0), (.i 0), (.i 0), (.i 0), (.i 0), (.i 0), (.i 0), (.i 0), (.i 0), (.i 0), (.i 0), (.i 0), (.i 0), (.i 0), (.i 0), (.i 0), (.i 0), (.i 0), (.i 0), (.i 0), (.i 0), (.i 0), (.i 0), (.i 0), (.i 0), (.i 0), (.i 0), (.i 0), (.i 0), (.i 0), (.i 0), (.i 0), (.i 0), (.i 0), (.i 0), (.i 0), (.i 0), (.i 0), (.i 0)]))
    pure ()) = true := by decide +kernel

/-- timeboard/tests/test_organizers.py 232: `TestOrganizeVariousTypesOfStructure.test_organize_structure_element_as_generator`. -/
example : passes (do
    let x1 ← Frame.new (⟨none, .D, by decide⟩ : Freq) (ts 2017 10 2) (ts 2017 10 4 23 59)
    let (x2, x3) ← Timeline.new (L := V) x1 (some (.organizer (.marker { each := (⟨none, .W none, by decide⟩ : Freq), ats := [] }) [.pattern (.rp 0)])) false (.i 0) (((noHeap : Heap V)).set 0 (Cycle.start [(.i 1), (.i 2)]))
    check 237 (decide (x2.labels = [(.i 1), (.i 2), (.i 1)]))
    pure ()) = true := by decide +kernel

/-- timeboard/tests/test_organizers.py 239: `TestOrganizeVariousTypesOfStructure.test_organize_structure_element_as_empty_generator`. -/
example : passes (do
    let x1 ← Frame.new (⟨none, .D, by decide⟩ : Freq) (ts 2017 10 2) (ts 2017 10 4 23 59)
    let (x2, x3) ← Timeline.new (L := V) x1 (some (.organizer (.marker { each := (⟨none, .W none, by decide⟩ : Freq), ats := [] }) [.pattern (.rp 0)])) false (.i 0) (((noHeap : Heap V)).set 0 (Cycle.start []))
    check 244 (decide (x2.labels = [(.i 0), (.i 0), (.i 0)]))
    pure ()) = true := by decide +kernel

/-- timeboard/tests/test_organizers.py 246: `TestOrganizeVariousTypesOfStructure.test_organize_structure_as_numpy_array`. -/
example : passes (do
    let x1 ← Frame.new (⟨none, .H, by decide⟩ : Freq) (ts 2017 10 2) (ts 2017 10 4 23 59)
    let (x2, x3) ← Timeline.new (L := V) x1 (some (.organizer (.marker { each := (⟨none, .D, by decide⟩ : Freq), ats := [] }) [.label (.i 1), .label (.i 2)])) false (.i 0) (noHeap : Heap V)
    check 251 (decide (x2.labels = [(.i 1), (.i 2), (.i 1)]))
    pure ()) = true := by decide +kernel

/-- timeboard/tests/test_organizers.py 253: `TestOrganizeVariousTypesOfStructure.test_organize_structure_as_empty_numpy_array`. -/
example : passes (do
    let x1 ← Frame.new (⟨none, .H, by decide⟩ : Freq) (ts 2017 10 2) (ts 2017 10 4 23 59)
    let (x2, x3) ← Timeline.new (L := V) x1 (some (.organizer (.marker { each := (⟨none, .D, by decide⟩ : Freq), ats := [] }) [])) false (.i 0) (noHeap : Heap V)
    check 258 (decide (x2.labels = [(.i 0), (.i 0), (.i 0), (.i 0), (.i 0), (.i 0), (.i 0), (.i 0), (.i 0), (.i 0), (.i 0), (.i 0), (.i 0), (.i 0), (.i 0), (.i 0), (.i 0), (.i 0), (.i 0), (.i 0), (.i 0), (.i 0), (.i 0), (.i 0), (.i 0), (.i 0), (.i 0), (.i 0), (.i 0), (.i 0), (.i 0), (.i 0), (.i 0), (.i 0), (.i 0), (.i 0), (.i 0), (.i 0), (.i 0), (.i 0), (.i 0), (.i 0), (.i 0), (.i 0), (.i 0), (.i 0), (.i 0), (.i 0), (.i 0), (.i 0), (.i 0), (.i 0), (.i 0), (.i 0), (.i 0), (.i 0), (.i 0), (.i 0), (.i 0), (.i 0), (.i 0), (.i 0), (.i 0), (.i 0), (.i 0), (.i 0), (.i 0), (.i 0), (.i 0), (.i 0), (.i 0), (.i 0)]))
    pure ()) = true := by decide +kernel

/-- timeboard/tests/test_organizers.py 260: `TestOrganizeVariousTypesOfStructure.test_organize_structure_element_as_numpy_array`. -/
example : passes (do
    let x1 ← Frame.new (⟨none, .D, by decide⟩ : Freq) (ts 2017 10 2) (ts 2017 10 4 23 59)
    let (x2, x3) ← Timeline.new (L := V) x1 (some (.organizer (.marker { each := (⟨none, .W none, by decide⟩ : Freq), ats := [] }) [.pattern (.list [(.i 1), (.i 2)])])) false (.i 0) (noHeap : Heap V)
    check 265 (decide (x2.labels = [(.i 1), (.i 2), (.i 1)]))
    pure ()) = true := by decide +kernel

/-- timeboard/tests/test_organizers.py 267: `TestOrganizeVariousTypesOfStructure.test_organize_structure_element_as_empty_numpy_array`. -/
example : passes (do
    let x1 ← Frame.new (⟨none, .D, by decide⟩ : Freq) (ts 2017 10 2) (ts 2017 10 4 23 59)
    let (x2, x3) ← Timeline.new (L := V) x1 (some (.organizer (.marker { each := (⟨none, .W none, by decide⟩ : Freq), ats := [] }) [.pattern (.list [])])) false (.i 0) (noHeap : Heap V)
    check 272 (decide (x2.labels = [(.i 0), (.i 0), (.i 0)]))
    pure ()) = true := by decide +kernel

/-- timeboard/tests/test_organizers.py 277: `TestApplyAmendments.test_amendments_basic`. -/
example : passes (do
    let x1 ← Frame.new (⟨none, .D, by decide⟩ : Freq) (ts 2017 1 1) (ts 2017 1 10)
    let (x2, x3) ← Timeline.new (L := V) x1 none false (.i 0) (noHeap : Heap V)
    let x4 ← x2.amend [((ts 2017 1 2), (.i 1)), ((ts 2017 1 9), (.i 2))] false
    check 283 (decide (x4.labels = [(.i 0), (.i 1), (.i 0), (.i 0), (.i 0), (.i 0), (.i 0), (.i 0), (.i 2), (.i 0)]))
    pure ()) = true := by decide +kernel

/-- timeboard/tests/test_organizers.py 285: `TestApplyAmendments.test_amendments_timestamps`. -/
example : passes (do
    let x1 ← Frame.new (⟨none, .D, by decide⟩ : Freq) (ts 2017 1 1) (ts 2017 1 10)
    let (x2, x3) ← Timeline.new (L := V) x1 none false (.i 0) (noHeap : Heap V)
    let x4 ← x2.amend [((ts 2017 1 2), (.i 1)), ((ts 2017 1 9), (.i 2))] false
    check 292 (decide (x4.labels = [(.i 0), (.i 1), (.i 0), (.i 0), (.i 0), (.i 0), (.i 0), (.i 0), (.i 2), (.i 0)]))
    pure ()) = true := by decide +kernel

/-- timeboard/tests/test_organizers.py 294: `TestApplyAmendments.test_amendments_periods`. -/
example : passes (do
    let x1 ← Frame.new (⟨none, .D, by decide⟩ : Freq) (ts 2017 1 1) (ts 2017 1 10)
    let (x2, x3) ← Timeline.new (L := V) x1 none false (.i 0) (noHeap : Heap V)
    let x4 ← x2.amend [((Period.ofTime (⟨none, .D, by decide⟩ : Freq) (ts 2017 1 2)).startTime, (.i 1)), ((Period.ofTime (⟨none, .D, by decide⟩ : Freq) (ts 2017 1 9)).startTime, (.i 2))] false
    check 301 (decide (x4.labels = [(.i 0), (.i 1), (.i 0), (.i 0), (.i 0), (.i 0), (.i 0), (.i 0), (.i 2), (.i 0)]))
    pure ()) = true := by decide +kernel

/-- timeboard/tests/test_organizers.py 303: `TestApplyAmendments.test_amendments_subperiods`. -/
example : passes (do
    let x1 ← Frame.new (⟨none, .D, by decide⟩ : Freq) (ts 2017 1 1) (ts 2017 1 10)
    let (x2, x3) ← Timeline.new (L := V) x1 none false (.i 0) (noHeap : Heap V)
    let x4 ← x2.amend [((Period.ofTime (⟨none, .H, by decide⟩ : Freq) (ts 2017 1 2 12)).startTime, (.i 1)), ((Period.ofTime (⟨none, .H, by decide⟩ : Freq) (ts 2017 1 9 15)).startTime, (.i 2))] false
    check 310 (decide (x4.labels = [(.i 0), (.i 1), (.i 0), (.i 0), (.i 0), (.i 0), (.i 0), (.i 0), (.i 2), (.i 0)]))
    pure ()) = true := by decide +kernel

/-- timeboard/tests/test_organizers.py 312: `TestApplyAmendments.test_amendments_outside`. -/
example : passes (do
    let x1 ← Frame.new (⟨none, .D, by decide⟩ : Freq) (ts 2017 1 1) (ts 2017 1 10)
    let (x2, x3) ← Timeline.new (L := V) x1 none false (.i 0) (noHeap : Heap V)
    let x4 ← x2.amend [((ts 2017 1 2), (.i 1)), ((ts 2017 1 11), (.i 2))] false
    check 318 (decide (x4.labels = [(.i 0), (.i 1), (.i 0), (.i 0), (.i 0), (.i 0), (.i 0), (.i 0), (.i 0), (.i 0)]))
    pure ()) = true := by decide +kernel

/-- timeboard/tests/test_organizers.py 320: `TestApplyAmendments.test_amendments_all_outside`. -/
example : passes (do
    let x1 ← Frame.new (⟨none, .D, by decide⟩ : Freq) (ts 2017 1 1) (ts 2017 1 10)
    let (x2, x3) ← Timeline.new (L := V) x1 none false (.i 0) (noHeap : Heap V)
    let x4 ← x2.amend [((ts 2016 1 2), (.i 1)), ((ts 2017 1 11), (.i 2))] false
    check 326 (decide (x4.labels = [(.i 0), (.i 0), (.i 0), (.i 0), (.i 0), (.i 0), (.i 0), (.i 0), (.i 0), (.i 0)]))
    pure ()) = true := by decide +kernel

/-- timeboard/tests/test_organizers.py 328: `TestApplyAmendments.test_amendments_outside_raise_and_clean`. -/
example : passes (do
    let x1 ← Frame.new (⟨none, .D, by decide⟩ : Freq) (ts 2017 1 1) (ts 2017 1 10)
    let (x2, x3) ← Timeline.new (L := V) x1 none false (.i 0) (noHeap : Heap V)
    raises 333 [.outOfBounds] (do
      let x4 ← x2.amend [((ts 2017 1 2), (.i 1)), ((ts 2017 1 11), (.i 2))] true
      pure ())
    check 336 (decide (x2.labels = [(.i 0), (.i 0), (.i 0), (.i 0), (.i 0), (.i 0), (.i 0), (.i 0), (.i 0), (.i 0)]))
    pure ()) = true := by decide +kernel

/-- timeboard/tests/test_organizers.py 340: `TestApplyAmendments.test_amendments_empty`. -/
example : passes (do
    let x1 ← Frame.new (⟨none, .D, by decide⟩ : Freq) (ts 2017 1 1) (ts 2017 1 10)
    let (x2, x3) ← Timeline.new (L := V) x1 none false (.i 0) (noHeap : Heap V)
    let x4 ← x2.amend [] false
    check 346 (decide (x4.labels = [(.i 0), (.i 0), (.i 0), (.i 0), (.i 0), (.i 0), (.i 0), (.i 0), (.i 0), (.i 0)]))
    pure ()) = true := by decide +kernel

/-- timeboard/tests/test_organizers.py 363: `TestOrganizeCompoundWorkshifts.test_organize_compound_all`. -/
example : passes (do
    let x1 ← Frame.new (⟨none, .D, by decide⟩ : Freq) (ts 2016 12 31) (ts 2017 1 10)
    let (x2, x3) ← Timeline.new (L := V) x1 (some (.organizer (.marker { each := (⟨none, .W none, by decide⟩ : Freq), ats := [] }) [.label (.i 1), .label (.i 2)])) false V.none (noHeap : Heap V)
    check 367 (decide (x2.labels = [(.i 1), (.i 2), (.i 1)]))
    check 368 (decide (x2.frameband = [0, 0, 2, 2, 2, 2, 2, 2, 2, 9, 9]))
    check 369 (decide (x2.wsIdx = [0, 2, 9]))
    pure ()) = true := by decide +kernel

/-- timeboard/tests/test_organizers.py 371: `TestOrganizeCompoundWorkshifts.test_organize_compound_alternate`. -/
example : passes (do
    let x1 ← Frame.new (⟨none, .D, by decide⟩ : Freq) (ts 2016 12 31) (ts 2017 1 10)
    let (x2, x3) ← Timeline.new (L := V) x1 (some (.organizer (.marker { each := (⟨none, .W none, by decide⟩ : Freq), ats := [] }) [.label (.i 100), .pattern (.list [(.i 1), (.i 2), (.i 3)])])) false V.none (noHeap : Heap V)
    check 375 (decide (x2.labels = [(.i 100), (.i 1), (.i 2), (.i 3), (.i 1), (.i 2), (.i 3), (.i 1), (.i 100)]))
    check 376 (decide (x2.frameband = [0, 0, 2, 3, 4, 5, 6, 7, 8, 9, 9]))
    check 377 (decide (x2.wsIdx = [0, 2, 3, 4, 5, 6, 7, 8, 9]))
    pure ()) = true := by decide +kernel

/-- timeboard/tests/test_organizers.py 379: `TestOrganizeCompoundWorkshifts.test_organize_compound_when_strings_are_labels`. -/
example : passes (do
    let x1 ← Frame.new (⟨none, .D, by decide⟩ : Freq) (ts 2016 12 31) (ts 2017 1 10)
    let (x2, x3) ← Timeline.new (L := V) x1 (some (.organizer (.marker { each := (⟨none, .W none, by decide⟩ : Freq), ats := [] }) [.label (.str "abc"), .label (.str "x")])) false V.none (noHeap : Heap V)
    check 383 (decide (x2.labels = [(.str "abc"), (.str "x"), (.str "abc")]))
    check 384 (decide (x2.frameband = [0, 0, 2, 2, 2, 2, 2, 2, 2, 9, 9]))
    check 385 (decide (x2.wsIdx = [0, 2, 9]))
    pure ()) = true := by decide +kernel

end TB.Conf
