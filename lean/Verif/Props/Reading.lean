import Verif.Props.MarkerAt
import Verif.Lemmas.Reading2
import Verif.Props.Layout
/-! Property C97: a timeboard is the list read from its layout. -/
namespace TB
open TB.Ex
variable {L : Type}

/-- **C97.** A timeboard is made exactly when its layout can be read as a list of workshifts (`Spec/Reading.lean`), it then consists
of these workshifts in this order, and the RememberingPatterns have handed out as many labels as were read; otherwise the
constructor raises the error met by the reader. -/
theorem C97_workshifts (a : Args L) (heap : Heap L) (m : Memory L) (hm : heap.Shows m) :
    match a.read m with
    | .error e => Timeboard.new a heap = .error e
    | .ok (f, ps, m') => ∃ tb heap', Timeboard.new a heap = .ok (tb, heap') ∧ heap'.Shows m' ∧ tb.ConsistsOf f ps :=
  Timeboard.new_reads a heap m hm

/-- **C97**, the division of one span by marks or a marker. -/
theorem C97_division (f : Frame) (c : Cut) (s : Span) (h0 : 0 ≤ s.first) (h1 : s.first ≤ s.last) (h2 : s.last < f.n) :
    f.cutSpan c s = f.cut s c := Frame.cutSpan_eq c h0 h1 h2

-- two weeks from Wednesday 4 January 2017, divided by weeks, by Tuesdays and by hand
example : ({ freq := fD, o0 := dayOf (date 2017 1 4), n := 14 } : Frame).cut { first := 0, last := 13 } (.marker ⟨fW, []⟩) =
      .ok [⟨0, 4, 2, 0⟩, ⟨5, 11, 0, 0⟩, ⟨12, 13, 0, 5⟩] ∧
    ({ freq := fD, o0 := dayOf (date 2017 1 4), n := 14 } : Frame).cut { first := 0, last := 13 } (.marker (offsetMarker fW [{ days := 1 }])) =
      .ok [⟨0, 5, 1, 0⟩, ⟨6, 12, 0, 0⟩, ⟨13, 13, 0, 6⟩] ∧
    ({ freq := fD, o0 := dayOf (date 2017 1 4), n := 14 } : Frame).cut { first := 2, last := 13 } (.marks [date 2017 1 17 + 1, date 2017 1 9, date 2017 1 9, date 2017 2 1, date 2017 1 5]) =
      .ok [⟨2, 4, 0, 0⟩, ⟨5, 12, 0, 0⟩, ⟨13, 13, 0, 0⟩] ∧
    ({ freq := fD, o0 := dayOf (date 2017 1 4), n := 14 } : Frame).cut { first := 2, last := 13 } (.marks [date 2017 1 17 + nsSec]) =
      .ok [⟨2, 13, 0, 0⟩] := by decide +kernel

/-- **C97**, the same from the side of the timeboard. -/
theorem C97_read_back {a : Args L} {heap heap' : Heap L} {m : Memory L} {tb : Timeboard L} (hm : heap.Shows m)
    (h : Timeboard.new a heap = .ok (tb, heap')) :
    ∃ f ps m', a.read m = .ok (f, ps, m') ∧ heap'.Shows m' ∧ tb.ConsistsOf f ps := by
  have := C97_workshifts a heap m hm
  cases hr : a.read m with
  | error e => rw [hr] at this; simp only at this; rw [this] at h; cases h
  | ok r =>
    obtain ⟨f, ps, m'⟩ := r
    rw [hr] at this
    obtain ⟨tb', heap1, h1, h2, h3⟩ := this
    rw [h] at h1
    cases h1
    exact ⟨f, ps, m', rfl, h2, h3⟩

/-- **C97**, errors. -/
theorem C97_error_iff {a : Args L} {heap : Heap L} {m : Memory L} (hm : heap.Shows m) (e : Err) :
    Timeboard.new a heap = .error e ↔ a.read m = .error e := by
  have := C97_workshifts a heap m hm
  cases hr : a.read m with
  | error e' => rw [hr] at this; simp only at this; rw [this]; simp
  | ok r =>
    rw [hr] at this
    obtain ⟨tb', heap1, h1, _⟩ := this
    rw [h1]
    simp

/-- **C97**, a new RememberingPattern has handed out no labels. -/
theorem C97_new_pattern (xs : List L) : (Cycle.start xs).Shows (xs, 0) := by
  by_cases h : xs = []
  · exact .inl ⟨h, by simp [Cycle.start, h], by simp [Cycle.start, h]⟩
  · exact .inr (Cycle.handedOut_start h)

/-! ### Examples -/

/-- The list read, as triples. -/
def readTriples (a : Args Int) (m : Memory Int) : Except Err (List (Int × Int × Int) × Nat) :=
  (a.read m).map (fun r => (r.2.1.map (fun p => (p.first, p.last, p.label)), (r.2.2 0).2))

def rpMemory : Memory Int := fun _ => ([1, 2, 3], 0)

example : Heap.Shows rpHeap rpMemory := fun _ => C97_new_pattern [1, 2, 3]

/-- Weeks by turns: days with labels of a RememberingPattern, one workshift for the week, two parts of a week one of which is
again given labels by the same pattern.  Wednesday 4 January 2017 and 14 January are amended. -/
def readExample : Args Int :=
  { rpArgs (.organizer (.marker ⟨fW, []⟩) [.pattern (.rp 0), .label 7, .organizer (.marks [date 2017 1 20]) [.label 8, .pattern (.rp 0)]])
      (date 2017 1 4) (date 2017 1 24) with amendments := [(date 2017 1 4, 100), (date 2017 1 14 + 5, 200), (date 2016 1 1, 5)] }

example : readTriples readExample rpMemory =
    .ok ([(0, 0, 100), (1, 1, 1), (2, 2, 2), (3, 3, 3), (4, 4, 1), (5, 11, 200), (12, 15, 8), (16, 16, 2), (17, 17, 3), (18, 18, 1),
      (19, 19, 2), (20, 20, 3)], 12) := by decide +kernel

/-- Two amendments of one week. -/
def readTwice : Args Int := { readExample with amendments := [(date 2017 1 10, 1), (date 2017 1 14, 2)] }

/-- A marker finer than the base unit, inside. -/
def readFiner : Args Int :=
  { readExample with layout := .organizer (.marks [date 2017 1 20]) [.label 1, .organizer (.marker ⟨fH, []⟩) [.label 1]] }

def readSingle : Args Int := { readExample with layout := .label 1 }

def readSource : Args Int := { readExample with worktimeSource := "x" }

example : readTriples readTwice rpMemory = .error .keyError := by decide +kernel

example : readTriples readSingle rpMemory = .error .typeError := by decide +kernel

example : readTriples readFiner rpMemory = .error .unacceptablePeriod := by decide +kernel

example : readTriples readSource rpMemory = .error .valueError := by decide +kernel

-- an organizer whose structure is a RememberingPattern; then a second timeboard with the same pattern
example : (do let r ← (rpArgs (.organizerRP (.marks [date 2017 1 3, date 2017 1 4]) 0) (date 2017 1 1) (date 2017 1 6)).read rpMemory
              let r' ← (rpArgs (.organizer (.marks [date 2017 1 3]) [.pattern (.rp 0)]) (date 2017 1 1) (date 2017 1 4)).read r.2.2
              return (r.2.1.map (fun (p : Piece Int) => (p.first, p.last, p.label)), r'.2.1.map (fun (p : Piece Int) => p.label))) =
    .ok ([(0, 1, 1), (2, 2, 2), (3, 5, 3)], [1, 2, 3, 1]) := by decide +kernel

end TB
