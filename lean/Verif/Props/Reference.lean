import Verif.Lemmas.Reference3
import Verif.Lemmas.WorkingDays
import Verif.Props.Reading
import Verif.Props.Roll
import Verif.Examples.Boards
/-! The library as a program on the list of workshifts. -/
namespace TB
open TB.Ex
variable {L : Type}

/-- **C98**, the list: every timeboard has exactly one list of workshifts. -/
theorem C98_list {tb : Timeboard L} (h : tb.Reachable) : ∃ xs, tb.ListedAs xs ∧ ∀ ys, tb.ListedAs ys → ys = xs := by
  have hv := h.valid
  obtain ⟨xs, hx⟩ := hv.listedAs
  refine ⟨xs, hx, fun ys hy => ?_⟩
  have hl : ys.length = xs.length := by have := hx.1; have := hy.1; omega
  apply List.ext_getElem? 
  intro i
  by_cases hi : i < xs.length
  · have h1 := hx.1
    obtain ⟨x, a1, a2, a3, a4, a5, a6⟩ := hx.get hv (k := i) (by omega) (by omega)
    obtain ⟨y, b1, b2, b3, b4, b5, b6⟩ := hy.get hv (k := i) (by omega) (by omega)
    rw [Int.toNat_natCast] at a1 b1
    rw [a1, b1]
    congr 1
    obtain ⟨_, _, _, _, _⟩ := x
    obtain ⟨_, _, _, _, _⟩ := y
    simp only at *
    rw [a2] at b2
    simp only [Shift.mk.injEq]
    exact ⟨by rw [b3, a3], by rw [b4, a4], by rw [b5, a5], by rw [b6, a6], (Except.ok.inj b2).symm⟩
  · rw [List.getElem?_eq_none (by omega), List.getElem?_eq_none (by omega)]

theorem Timeboard.new_refEnd {a : Args L} {heap heap' : Heap L} {tb : Timeboard L} (h : Timeboard.new a heap = .ok (tb, heap')) :
    tb.timeline.refEnd = a.refEnd := by
  obtain ⟨org, f, tl0, tl, _, _, _, ht, ha, rfl⟩ := Timeboard.new_ok_iff.1 h
  have h1 := Timeline.new_withRef f (some org) a.refEnd a.refEnd a.defaultLabel heap
  rw [ht] at h1
  simp only [Except.ok.injEq, Prod.mk.injEq, and_true] at h1
  have h3 := (Timeline.amend_frame ha).2.2.2.1
  show tl.refEnd = a.refEnd
  rw [h3, h1]

/-- **C98**, the list from the arguments of the constructor: it is the list read from the layout, C97. -/
theorem C98_list_read {a : Args L} {heap heap' : Heap L} {m m' : Memory L} {tb : Timeboard L} {f : Frame} {ps : List (Piece L)}
    (hm : heap.Shows m) (h : Timeboard.new a heap = .ok (tb, heap')) (hr : a.read m = .ok (f, ps, m')) :
    tb.ListedAs (ps.map (Piece.shift f a.refEnd)) := by
  have hw := C97_workshifts a heap m hm
  rw [hr] at hw
  obtain ⟨tb1, h1, e1, _, c1, c2, c3⟩ := hw
  rw [h] at e1
  cases e1
  have href : tb.timeline.refEnd = a.refEnd := Timeboard.new_refEnd h
  refine ⟨by rw [List.length_map]; exact c2, ?_⟩
  intro k x hx
  rw [List.getElem?_map] at hx
  cases hp : ps[k]? with
  | none => rw [hp] at hx; cases hx
  | some p =>
    rw [hp] at hx
    simp only [Option.map_some, Option.some.injEq] at hx
    subst hx
    obtain ⟨w, d1, d2, d3, d4, d5⟩ := c3 k p hp
    refine ⟨w, d1, d2, d3, ?_, d4, d5⟩
    unfold Workshift.toTimestamp Timeline.wsRef
    rw [href]
    unfold Piece.shift
    cases a.refEnd with
    | true => exact d3
    | false => exact d2

section
variable {tb : Timeboard L} (h : tb.Reachable) {xs : List (Shift L)} (hx : tb.ListedAs xs)
include h hx

/-- **C98**, workshifts: `get_workshift`, `rollforward` and `rollback` find the workshift with the number found by the reference
program, or raise its error. -/
theorem C98_workshifts {sch : Option (Schedule L)} (hs : tb.OwnsOpt sch) :
    (∀ t, (tb.getWorkshift t sch).map (fun w => w.loc) = Reference.getWorkshift xs t) ∧
    ∀ (k : Int) (sw : Option (Schedule L)) (w : Workshift L), 0 ≤ k → k < tb.timeline.len → tb.OwnsOpt sw → Workshift.new tb k sw = .ok w →
      ∀ (n : Int) (d : Duty),
        (w.rollforward tb n d sch).map (fun w => w.loc) = Reference.rollforward xs (sch.getD w.schedule).selector k n d ∧
        (w.rollback tb n d sch).map (fun w => w.loc) = Reference.rollback xs (sch.getD w.schedule).selector k n d := by
  have hv := h.valid
  refine ⟨fun t => hx.getWorkshift hv t sch, fun k sw w h0 h1 hsw hw n d => ?_⟩
  have ho := owns_roll hv hw hsw hs
  obtain ⟨w', e1, e2, _, e4, _⟩ := Workshift.exists_of_range hv sw h0 h1
  rw [hw] at e1
  cases e1
  subst e2
  exact ⟨hx.rollforward hv h0 h1 e4 ho n d, hx.rollback hv h0 h1 e4 ho n d⟩

/-- **C98**, `get_interval` with any arguments. -/
theorem C98_get_interval (ref : Option IvlRef) (length : Option Int) (period : Option Freq) (clip : Bool) (closed : String)
    (sch : Option (Schedule L)) :
    (tb.getInterval ref length period clip closed sch).map Interval.numbers = Reference.getInterval xs ref length period clip closed :=
  hx.getInterval h.valid ref length period clip closed sch

variable {v : Interval L} (hi : tb.HasInterval v) {sch : Option (Schedule L)} (hs : tb.OwnsOpt sch)
include hi hs

/-- **C98**, what an interval is asked for, with any value of `duty`. -/
theorem C98_intervals (d : Duty) :
    (v.workshifts tb d sch).map (fun ws => ws.map (fun w => w.loc)) = Reference.workshifts xs (sch.getD v.schedule).selector v.numbers d ∧
    v.count tb d sch = Reference.count xs (sch.getD v.schedule).selector v.numbers d ∧
    (∀ n, (v.nth tb n d sch).map (fun w => w.loc) = Reference.nth xs (sch.getD v.schedule).selector v.numbers n d) ∧
    v.totalDuration tb d sch = Reference.totalDuration xs (sch.getD v.schedule).selector v.numbers d ∧
    ∀ num, v.worktime tb num d sch = Reference.worktime xs tb.worktimeSource num (sch.getD v.schedule).selector v.numbers d := by
  have hv := h.valid
  have hf := hi.fine hv
  exact ⟨hx.workshifts hv hf hs d, hx.count hv hf hs d, hx.nth hv hf hs d, hx.totalDuration hv hf hs d, fun num => hx.worktime hv hf hs num d⟩

/-- **C98**, two intervals. -/
theorem C98_two_intervals {u : Interval L} (hu : tb.HasInterval u) (d : Duty) :
    (v.overlap tb u sch).map Interval.numbers = .ok (Reference.overlap v.numbers u.numbers) ∧
    v.whatPortionOf tb u d sch = Reference.portion xs (sch.getD v.schedule).selector v.numbers u.numbers d := by
  have hv := h.valid
  have hf := hi.fine hv
  have hfu := hu.fine hv
  refine ⟨?_, hx.portion hv hf hfu hs d⟩
  obtain ⟨x, h1, _, _, h4⟩ := hf.overlap_numbers hfu hs
  rw [h1, ← h4]; rfl

/-- **C98**, `count_periods`. -/
theorem C98_count_periods (freq : Freq) (d : Duty) :
    v.countPeriods tb freq d sch = Reference.countPeriods xs (sch.getD v.schedule).selector v.numbers freq d :=
  hx.countPeriods h (hi.fine h.valid) hs freq d

end

/-! ### Examples -/

/-- The list of the shifts, as read from the arguments. -/
def shiftList : List (Shift Int) :=
  match shiftArgs.read (fun _ => ([], 0)) with
  | .ok (f, ps, _) => ps.map (Piece.shift f true)
  | .error _ => []

def weekList : List (Shift Int) :=
  match weekArgs.read (fun _ => ([], 0)) with
  | .ok (f, ps, _) => ps.map (Piece.shift f false)
  | .error _ => []

theorem heap0_shows : Heap.Shows heap0 (fun _ => ([], 0)) := fun _ => C97_new_pattern []

theorem week_listed : week.ListedAs weekList := by
  obtain ⟨heap', h'⟩ := board_ok weekArgs (by decide +kernel)
  unfold weekList
  obtain ⟨f, ps, m', hr, _⟩ := C97_read_back heap0_shows h'
  rw [hr]
  exact C98_list_read heap0_shows h' hr

theorem shifts_listed : shifts.ListedAs shiftList := by
  obtain ⟨heap', h'⟩ := board_ok shiftArgs (by decide +kernel)
  unfold shiftList
  obtain ⟨f, ps, m', hr, _⟩ := C97_read_back heap0_shows h'
  rw [hr]
  exact C98_list_read heap0_shows h' hr

def onWeek (l : Int) : Bool := l != 0

example : shiftList.map (fun x => (x.duration, x.label)) = [(10, 10), (14, 0), (10, 6), (14, 10), (10, 0), (14, 6)] := by decide +kernel

-- what the reference program computes on the week
example : Reference.getWorkshift weekList (date 2017 1 5 + 7) = .ok 4 ∧ Reference.getWorkshift weekList (date 2017 2 1) = .error .outOfBounds := by
  decide +kernel

example : Reference.rollforward weekList onWeek 0 2 .on = .ok 4 ∧ Reference.rollforward weekList onWeek 30 (-3) .same = .ok 25 ∧
    Reference.rollback weekList onWeek 6 1 .on = .ok 4 ∧ Reference.rollback weekList onWeek 2 0 .alt = .ok 1 ∧
    Reference.rollback weekList onWeek 1 0 .on = .error .outOfBounds ∧ Reference.rollforward weekList onWeek 1 0 .other = .error .valueError := by
  decide +kernel

example : Reference.getInterval weekList (some (.pair (some (date 2017 1 5)) (some (date 2017 1 9)))) none none true "01" = .ok [5, 6, 7, 8] ∧
    Reference.getInterval weekList (some (.point (date 2017 1 5))) (some (-3)) none true "11" = .ok [2, 3, 4] ∧
    Reference.getInterval weekList (some (.point (date 2017 1 5))) (some (-6)) none true "11" = .error .partialOutOfBounds ∧
    Reference.getInterval weekList (some (.point (date 2017 1 31))) none (some fW) true "11" = .ok [29, 30] ∧
    Reference.getInterval weekList (some (.point (date 2017 1 31))) none (some fW) false "11" = .error .partialOutOfBounds := by decide +kernel

example : Reference.count weekList onWeek [5, 6, 7, 8] .on = .ok 3 ∧ Reference.nth weekList onWeek [5, 6, 7, 8] (-1) .off = .ok 6 ∧
    Reference.worktime weekList "labels" (fun l => some l) onWeek [5, 6, 7, 8] .on = .ok 23 ∧
    Reference.portion weekList onWeek [5, 6, 7, 8] [7, 8, 9, 10, 11] .on = .ok (2 / 5) := by decide +kernel

example : Reference.countPeriods weekList onWeek [0, 1, 2] fW .on = .error .partialOutOfBounds ∧
    Reference.countPeriods weekList onWeek [8, 9, 10] fW .on = .ok (3 / 5) ∧
    Reference.countPeriods weekList onWeek [8, 9, 10, 15, 16, 17, 18] fW .off = .ok 0 ∧
    Reference.countPeriods weekList onWeek [8, 9, 10] fM .same = .error .valueError := by decide +kernel

end TB
