import Verif.Conformance.Support
import Verif.Model.Values
/-!
# Tests with arguments of a wrong kind

Transcribed by hand from `timeboard/tests/*.py`: the tests which `tools/conformance.py` leaves out because their arguments are strings
which cannot be read, numbers which are not integers, tuples which are too short and so on.  They are stated with the functions of
`Model/Values.lean`.  Checks of the model on single inputs, not proofs of properties.
-/
set_option linter.unusedVariables false
namespace TB.Conf

/-- A string which cannot be read as a point in time or as a frequency. -/
def bad (s : String) : PyValue V := .word { chars := s }
/-- A string which is read as a point in time. -/
def pt (s : String) (t : Time) : PyValue V := .word { chars := s, time := some t }
/-- `'W'`. -/
def weekly : PyValue V := .word { chars := "W", freq := some ⟨none, .W none, by decide⟩ }
/-- `5.5`; numbers are nanoseconds for `pd.Timestamp`. -/
def frac (n : Int) : PyValue V := .float n
def closed11 : PyValue V := .word { chars := "11" }

/-- `tb_12_days()` of test_workshift.py 11-14. -/
def days12 : C (Timeboard V) := do
  let (x1, _) ← Timeboard.new (L := V) { freq := (⟨none, .D, by decide⟩ : Freq), start := (ts 2016 12 31), stop := (ts 2017 1 12), layout := .pattern (.list [(.i 0), (.i 1), (.i 0), (.i 0), (.i 2), (.i 0)]), selector := V.truthy, defaultLabel := V.none } (noHeap : Heap V)
  pure x1

/-- `tb_12_days()` of test_intervals.py 13-16. -/
def days12i : C (Timeboard V) := do
  let (x1, _) ← Timeboard.new (L := V) { freq := (⟨none, .D, by decide⟩ : Freq), start := (ts 2016 12 31), stop := (ts 2017 1 12), layout := .pattern (.list [(.i 0), (.i 1), (.i 0)]), selector := V.truthy, defaultLabel := V.none } (noHeap : Heap V)
  pure x1

/-- The value does not matter. -/
def drop {α : Type} (x : Except Err α) : C Unit := do
  let _ ← x
  pure ()

/-! ## test_workshift.py -/

/-- test_workshift.py 32: `TestWorkshiftConstructor.test_locate_bad_ts`. -/
example : passes (do
    let clnd ← days12
    raises 34 [.valueError] (drop (clnd.locateV (bad "33 Dec 2016")))
    raises 36 [.valueError] (drop (clnd.locateV (bad "bad timestamp")))) = true := by decide +kernel

/-- test_workshift.py 123: `TestWorkshiftConstructor.test_direct_workshift_constructor_with_bad_loc`, the blocks left out elsewhere. -/
example : passes (do
    let clnd ← days12
    let s : PyValue V := .schedule clnd.defaultSchedule
    raises 130 [.typeError] (drop (Workshift.newV clnd (frac 10) s))
    raises 132 [.typeError] (drop (Workshift.newV clnd (pt "05 Jan 2017" (ts 2017 1 5)) s))) = true := by decide +kernel

/-- test_workshift.py 237 and 344: `test_rollforward_bad_duty`, `test_rollback_bad_duty`. -/
example : passes (do
    let clnd ← days12
    let ws ← clnd.getWorkshift (ts 2017 1 1)
    raises 239 [.valueError] (drop (ws.rollforward clnd 0 .other))
    raises 346 [.valueError] (drop (ws.rollback clnd 0 .other))) = true := by decide +kernel

/-- test_workshift.py 452: `test_workshift_sub_non_ws`. -/
example : passes (do
    let clnd ← days12
    let ws ← clnd.getWorkshift (ts 2017 1 7)
    raises 454 [.typeError] (drop (ws.subV clnd (.time (ts 2017 1 1))))) = true := by decide +kernel

/-- test_workshift.py 572: `TestWorkshiftSchedules.test_ws_bad_schedule`. -/
example : passes (do
    let clnd ← days12
    let (_, clnd) ← clnd.addSchedule "sdl" (fun x => x.gt 1)
    raises 575 [.typeError] (drop (clnd.getWorkshiftV (pt "03 Jan 2017" (ts 2017 1 3)) (bad "sdl")))) = true := by decide +kernel

/-- test_workshift.py 632: `TestWorkshiftWorktime.test_ws_worktime_bad_duty`. -/
example : passes (do
    let clnd ← days12
    let ws ← Workshift.new clnd 4 none
    raises 635 [.valueError] (drop (ws.worktime clnd V.num? .other))) = true := by decide +kernel

/-! ## test_intervals.py -/

/-- test_intervals.py 119: `test_interval_locator_with_bad_ts`. -/
example : passes (do
    let clnd ← days12i
    raises 121 [.valueError] (drop (clnd.locsFromReferenceV (.tuple [bad "bad_timestamp", pt "08 Jan 2017 15:00" (ts 2017 1 8 15)]) false false))
    raises 124 [.valueError] (drop (clnd.locsFromReferenceV (.tuple [pt "02 Jan 2017 15:00" (ts 2017 1 2 15), bad "bad_timestamp"]) false false))) = true := by decide +kernel

/-- test_intervals.py 128: `test_interval_locator_with_singletons`. -/
example : passes (do
    let clnd ← days12i
    raises 130 [.typeError] (drop (clnd.locsFromReferenceV (.tuple [pt "08 Jan 2017 15:00" (ts 2017 1 8 15)]) false false))
    raises 133 [.typeError] (drop (clnd.locsFromReferenceV (pt "08 Jan 2017 15:00" (ts 2017 1 8 15)) false false))
    raises 136 [.typeError] (drop (clnd.locsFromReferenceV (.time (ts 2017 1 8 15)) false false))) = true := by decide +kernel

/-- test_intervals.py 477: `test_interval_constructor_with_bad_period`. -/
example : passes (do
    let clnd ← days12i
    raises 479 [.valueError] (drop (clnd.getIntervalV (pt "02 Jan 2017 15:00" (ts 2017 1 2 15)) .pyNone (bad "bad_period") true closed11 .pyNone))
    raises 481 [.valueError] (drop (clnd.callNV (pt "02 Jan 2017 15:00" (ts 2017 1 2 15)) .pyNone (bad "bad_period") true closed11 .pyNone))
    raises 483 [.valueError] (drop (clnd.getIntervalV (bad "bad_timestamp") .pyNone weekly true closed11 .pyNone))) = true := by decide +kernel

/-- test_intervals.py 698: `test_interval_constructor_with_bad_length`. -/
example : passes (do
    let clnd ← days12i
    raises 700 [.typeError] (drop (clnd.getIntervalV (pt "02 Jan 2017 15:00" (ts 2017 1 2 15)) (frac 5) .pyNone true closed11 .pyNone))
    raises 702 [.typeError] (drop (clnd.callNV (pt "02 Jan 2017 15:00" (ts 2017 1 2 15)) (frac 5) .pyNone true closed11 .pyNone))
    raises 704 [.typeError] (drop (clnd.getIntervalV (pt "02 Jan 2017 15:00" (ts 2017 1 2 15)) (bad "x") .pyNone true closed11 .pyNone))
    raises 706 [.valueError] (drop (clnd.getIntervalV (bad "bad_timestamp") (.int 5) .pyNone true closed11 .pyNone))) = true := by decide +kernel

/-- test_intervals.py 712: `test_interval_constructor_bad_arg_combinations`, the whole test. -/
example : passes (do
    let clnd ← days12i
    let d1 := pt "01 Jan 2017" (ts 2017 1 1)
    let any2 : PyValue V := .tuple [bad "anyhting", bad "anything"]
    raises 714 [.typeError] (drop (clnd.getIntervalV d1 .pyNone .pyNone true closed11 .pyNone))
    raises 716 [.typeError] (drop (clnd.getIntervalV (.tuple [d1]) .pyNone .pyNone true closed11 .pyNone))
    raises 718 [.typeError] (drop (clnd.getIntervalV d1 (pt "05 Jan 2017" (ts 2017 1 5)) .pyNone true closed11 .pyNone))
    raises 720 [.typeError] (drop (clnd.getIntervalV (.tuple [d1]) (.int 1) .pyNone true closed11 .pyNone))
    raises 722 [.typeError] (drop (clnd.getIntervalV any2 (.int 1) .pyNone true closed11 .pyNone))
    raises 724 [.typeError] (drop (clnd.getIntervalV (.tuple [pt "02 Jan 2017" (ts 2017 1 2)]) .pyNone weekly true closed11 .pyNone))
    raises 726 [.typeError] (drop (clnd.getIntervalV any2 .pyNone weekly true closed11 .pyNone))
    raises 728 [.typeError] (drop (clnd.getIntervalV (bad "anyhting") (.int 1) weekly true closed11 .pyNone))
    raises 730 [.typeError] (drop (clnd.getIntervalV any2 (.int 1) weekly true closed11 .pyNone))
    raises 732 [.typeError] (drop (clnd.getIntervalV .pyNone (.int 1) weekly true closed11 .pyNone))) = true := by decide +kernel

/-- test_intervals.py 735: `test_interval_constructor_bad_arg_combinations_2`, the whole test. -/
example : passes (do
    let clnd ← days12i
    let d1 := pt "01 Jan 2017" (ts 2017 1 1)
    let any2 : PyValue V := .tuple [bad "anyhting", bad "anything"]
    raises 737 [.typeError] (drop (clnd.call1V (.tuple [d1])))
    raises 739 [.typeError] (drop (clnd.callNV d1 (pt "05 Jan 2017" (ts 2017 1 5)) .pyNone true closed11 .pyNone))
    raises 741 [.typeError] (drop (clnd.callNV (.tuple [d1]) (.int 1) .pyNone true closed11 .pyNone))
    raises 743 [.typeError] (drop (clnd.callNV any2 (.int 1) .pyNone true closed11 .pyNone))
    raises 745 [.typeError] (drop (clnd.callNV (.tuple [pt "02 Jan 2017" (ts 2017 1 2)]) .pyNone weekly true closed11 .pyNone))
    raises 747 [.typeError] (drop (clnd.callNV any2 .pyNone weekly true closed11 .pyNone))
    raises 749 [.typeError] (drop (clnd.callNV (bad "anyhting") (.int 1) weekly true closed11 .pyNone))
    raises 751 [.typeError] (drop (clnd.callNV any2 (.int 1) weekly true closed11 .pyNone))
    raises 753 [.typeError] (drop (clnd.callNV .pyNone (.int 1) weekly true closed11 .pyNone))) = true := by decide +kernel

/-- test_intervals.py 776 and 787: intervals from workshifts and positions mixed. -/
example : passes (do
    let clnd ← days12i
    let w2 ← Workshift.new clnd 2 none
    let w8 ← clnd.getWorkshift (ts 2017 1 8)
    let i ← Interval.makeV clnd (.tuple [.workshift w2.loc 0, .workshift w8.loc 0]) (.schedule clnd.defaultSchedule) false
    check 768 (decide (i.lo = 2 ∧ i.hi = 8 ∧ i.length = 7))
    let j ← Interval.makeV clnd (.tuple [.int 2, .workshift w8.loc 0]) (.schedule clnd.defaultSchedule) false
    check 795 (decide (j.lo = 2 ∧ j.hi = 8 ∧ j.length = 7))) = true := by decide +kernel

/-- test_intervals.py 823: `test_interval_direct_bad_args`, but for the first block (something other than a timeboard). -/
example : passes (do
    let clnd ← days12i
    let s : PyValue V := .schedule clnd.defaultSchedule
    raises 827 [.typeError] (drop (Interval.makeV clnd (.tuple [.int 2, frac 8]) s false))
    raises 829 [.typeError] (drop (Interval.makeV clnd (.tuple [.int 2, pt "08 Jan 2017" (ts 2017 1 8)]) s false))
    raises 831 [.indexError] (drop (Interval.makeV clnd (.tuple [.int 2]) s false))
    raises 833 [.typeError] (drop (Interval.makeV clnd (bad "not a tuple") s false))
    raises 836 [.typeError] (drop (Interval.makeV clnd (.tuple [.int 8, .int 2]) (bad "on_duty") true))) = true := by decide +kernel

/-- test_intervals.py 980: `test_void_ivl_iteration` (without the last line: arguments which are ignored). -/
example : passes (do
    let clnd ← days12i
    let v ← Interval.makeV clnd (.tuple [.int 8, .int 2]) .pyNone true
    let xs ← v.workshifts clnd .any
    let ys ← v.workshifts clnd
    check 983 xs.isEmpty
    check 984 ys.isEmpty) = true := by decide +kernel

/-- test_intervals.py 998: `test_void_interval__bad_args`, but for the first block. -/
example : passes (do
    let clnd ← days12i
    let s : PyValue V := .schedule clnd.defaultSchedule
    raises 1002 [.typeError] (drop (Interval.makeV clnd (.tuple [frac 8, .int 2]) s true))
    raises 1004 [.typeError] (drop (Interval.makeV clnd (.tuple [pt "08 Jan 2017" (ts 2017 1 8), .int 2]) s true))
    raises 1006 [.indexError] (drop (Interval.makeV clnd (.tuple [.int 8]) s true))
    raises 1008 [.typeError] (drop (Interval.makeV clnd (bad "not a tuple") s true))
    raises 1011 [.typeError] (drop (Interval.makeV clnd (.tuple [.int 8, .int 2]) (bad "on_duty") true))) = true := by decide +kernel

/-! ## test_interval_methods.py -/

/-- test_interval_methods.py 636: `test_ivl_bad_schedule`. -/
example : passes (do
    let clnd ← days12i
    let (_, clnd) ← clnd.addSchedule "sdl" (fun x => x.gt 1)
    raises 639 [.typeError] (drop (clnd.callNV .pyNone .pyNone .pyNone true closed11 (bad "sdl")))) = true := by decide +kernel

/-! ## test_organizers.py -/

/-- What the properties `marker`, `marks`, `structure` of an organizer return, as far as the tests look. -/
def describe : Layout V → Option (Option Freq × Option (List Time) × List V)
  | .organizer cut ls => some (match cut with | .marker m => some m.each | _ => none, match cut with | .marks ts => some ts | _ => none,
      ls.filterMap (fun l => match l with | .label v => some v | _ => none))
  | _ => none

/-- test_organizers.py 11 and 17: `test_organizer_constructor_marker`, `test_organizer_constructor_marks`. -/
example : passes (do
    let org ← organizerV (some (.freq ⟨none, .W none, by decide⟩)) none (.elems [.label (.i 1), .label (.i 2), .label (.i 3)])
    check 13 (decide (describe org = some (some ⟨none, .W none, by decide⟩, none, [.i 1, .i 2, .i 3])))
    let org ← organizerV none (some (.many [ts 2017 1 1])) (.elems [.label (.i 1), .label (.i 2), .label (.i 3)])
    check 19 (decide (describe org = some (none, some [ts 2017 1 1], [.i 1, .i 2, .i 3])))) = true := by decide +kernel

/-- test_organizers.py 23, 27, 31, 35, 39: wrong arguments. -/
example : passes (do
    let s : StructureArg V := .elems [.label (.i 1), .label (.i 2), .label (.i 3)]
    let w : MarkerArg := .freq ⟨none, .W none, by decide⟩
    raises 24 [.typeError] (drop (organizerV none (some (.one (ts 2017 1 1))) (.notIterable : StructureArg V)))
    raises 28 [.valueError] (drop (organizerV none none s))
    raises 32 [.valueError] (drop (organizerV (some w) (some (.one (ts 2017 1 1))) s))
    raises 36 [.typeError] (drop (organizerV (some w) none (.notIterable : StructureArg V)))
    raises 40 [.typeError] (drop (organizerV (some w) none (.notIterable : StructureArg V)))) = true := by decide +kernel

/-- test_organizers.py 348: `test_amendments_bad_timestamp_raise_and_clean`. -/
example : passes (do
    let f ← Frame.new (⟨none, .D, by decide⟩ : Freq) (ts 2017 1 1) (ts 2017 1 10)
    let (t, _) ← Timeline.new (L := V) f none false (.i 0) (noHeap : Heap V)
    raises 354 [.valueError] (drop (t.amendV [(pt "02 Jan 2017" (ts 2017 1 2), .i 1), (bad "bad timestamp", .i 2)]))) = true := by decide +kernel

/-! ## test_timeboard.py -/

/-- test_timeboard.py 84: `test_tb_constructor_bad_amendments`. -/
example : passes (do
    raises 85 [.typeError] (drop (Timeboard.newV (L := V) { freq := (⟨none, .D, by decide⟩ : Freq), start := (ts 2017 1 1), stop := (ts 2017 1 12), layout := .pattern (.list [(.i 1)]), selector := V.truthy, defaultLabel := V.none } .noItems (noHeap : Heap V)))) = true := by decide +kernel

/-! ## test_patterns.py -/

/-- test_patterns.py 59 and 64: `test_skiperator_empty`, `test_skiperator_empty_skip` (StopIteration is no element). -/
example : (skiperatorTake (L := V) (.list []) 0 1 noHeap).isNone = true ∧ (skiperatorTake (L := V) (.list []) 2 1 noHeap).isNone = true := by
  decide +kernel

end TB.Conf
