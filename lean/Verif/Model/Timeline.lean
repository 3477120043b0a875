import Verif.Model.Layout
/-!
# Timelines and schedules

Models `_Timeline` (core.py 584-1125) and `_Schedule` (core.py 1128-1212).
-/
namespace TB

/-- `_Timeline` after construction.  `wsIdx` and `labels` are the index and the values of `_wsband`,
`frameband` the values of `_frameband`; `refEnd` is `_workshift_ref == 'end'` (any other value is
treated as 'start' by the code, core.py 842). -/
structure Timeline (L : Type) where
  frame : Frame
  wsIdx : List Int
  labels : List L
  frameband : List Int
  refEnd : Bool

/-- `_masked_counter`: core.py 625-630, over the indices `i, i+1, ..., i+k-1` with current value `n`. -/
def maskedCounter (mask : Int → Bool) : Nat → Int → Int → List Int
  | 0, _, _ => []
  | k + 1, i, n => if mask i then i :: maskedCounter mask k (i + 1) i else n :: maskedCounter mask k (i + 1) n

/-- `nonzero(self._ws_compound_mask)[0]`: core.py 641. -/
def nonzeroMask (mask : Int → Bool) (n : Nat) : List Int :=
  ((List.range n).map (fun (i : Nat) => (i : Int))).filter mask

/-- `_Timeline.__init__`: core.py 616-660.  Returns also the states of RememberingPatterns.
`layout = none` is `organizer=None`. -/
def Timeline.new {L : Type} (frame : Frame) (organizer : Option (Layout L)) (refEnd : Bool) (data : L)
    (heap : Heap L) : Except Err (Timeline L × Heap L) :=
  match organizer with
  | none =>
    .ok ({ frame := frame
           wsIdx := (List.range frame.n).map (fun (i : Nat) => (i : Int))
           labels := List.replicate frame.n data
           frameband := (List.range frame.n).map (fun (i : Nat) => (i : Int))
           refEnd := refEnd }, heap)
  | some o =>
    match Layout.run frame o { first := 0, last := (frame.n : Int) - 1 }
        { labels := fun _ => data, mask := fun _ => true, heap := heap } with
    | .error e => .error e
    | .ok st =>
      let idx := nonzeroMask st.mask frame.n
      .ok ({ frame := frame, wsIdx := idx, labels := idx.map st.labels
             frameband := maskedCounter st.mask frame.n 0 0, refEnd := refEnd }, st.heap)

/-- Turn a failed lookup into IndexError. -/
def orIndexError {α : Type} (x : Option α) : Except Err α :=
  match x with
  | some a => .ok a
  | none => .error .indexError

/-- `len(timeline)`: core.py 778-779. -/
def Timeline.len {L : Type} (tl : Timeline L) : Int := (tl.wsIdx.length : Int)

/-- `timeline[n]`: core.py 781-782 (`iloc`, negative positions accepted). -/
def Timeline.label {L : Type} (tl : Timeline L) (n : Int) : Except Err L := orIndexError (pyGet? tl.labels n)

/-- `_get_ws_first_baseunit`: core.py 784-785. -/
def Timeline.firstBaseunit {L : Type} (tl : Timeline L) (n : Int) : Except Err Int :=
  orIndexError (pyGet? tl.wsIdx n)

/-- `_get_ws_last_baseunit`: core.py 787-798. -/
def Timeline.lastBaseunit {L : Type} (tl : Timeline L) (n : Int) : Except Err Int :=
  match pyGet? tl.wsIdx n with
  | none => .error .indexError
  | some _ => match pyGet? tl.wsIdx (n + 1) with
    | some x => .ok (x - 1)
    | none => .ok ((tl.frame.n : Int) - 1)

/-- `self._frameband.index[i]`: a base unit by a Python index (negative accepted). -/
def Frame.unitAt (f : Frame) (i : Int) : Except Err Int := orIndexError (pyGet? ((List.range f.n).map (fun (i : Nat) => (i : Int))) i)

/-- `get_ws_start_time`: core.py 800-812. -/
def Timeline.wsStart {L : Type} (tl : Timeline L) (n : Int) : Except Err Time := do
  let b ← tl.firstBaseunit n
  let u ← tl.frame.unitAt b
  return tl.frame.unitStart u

/-- `get_ws_end_time`: core.py 814-826. -/
def Timeline.wsEnd {L : Type} (tl : Timeline L) (n : Int) : Except Err Time := do
  let b ← tl.lastBaseunit n
  let u ← tl.frame.unitAt b
  return tl.frame.unitEnd u

/-- `get_ws_ref_time`: core.py 828-845. -/
def Timeline.wsRef {L : Type} (tl : Timeline L) (n : Int) : Except Err Time :=
  if tl.refEnd then tl.wsEnd n else tl.wsStart n

/-- `get_ws_duration`: core.py 847-860. -/
def Timeline.wsDuration {L : Type} (tl : Timeline L) (n : Int) : Except Err Int := do
  let b ← tl.lastBaseunit n
  let a ← tl.firstBaseunit n
  return b - a + 1

/-- `get_durations_for_ws_array`: core.py 862-891 (the values of the series). -/
def Timeline.durationsFor {L : Type} (tl : Timeline L) (locs : List Int) : Except Err (List Int) := do
  let firsts ← locs.mapM (fun n => tl.firstBaseunit n)
  return firsts.map (fun b => ssRight tl.frameband b - ssLeft tl.frameband b)

/-- `get_ws_position`: core.py 893-916.  `index.get_loc` raises KeyError for a missing value. -/
def Timeline.wsPosition {L : Type} (tl : Timeline L) (t : Time) : Except Err Int :=
  match tl.frame.getLoc t with
  | .error _ => .error .outOfBounds
  | .ok bu => match pyGet? tl.frameband bu with
    | none => .error .indexError
    | some idx => match tl.wsIdx.findIdx? (fun x => x == idx) with
      | none => .error .keyError
      | some p => .ok (p : Int)

/-- The loop of `get_ws_pos_by_ref_after`: core.py 943-951.  The first argument bounds the number of
rounds; running out of it is reported as RuntimeError (`byRef_terminates` shows this cannot happen). -/
def Timeline.afterLoop {L : Type} (tl : Timeline L) (t : Time) : Nat → Int → Except Err Int
  | 0, _ => .error .runtimeError
  | k + 1, c => match tl.wsRef c with
    | .error .indexError => .error .outOfBounds
    | .error e => .error e
    | .ok r => if r ≥ t then .ok c else tl.afterLoop t k (c + 1)

/-- `get_ws_pos_by_ref_after`: core.py 918-953. -/
def Timeline.posByRefAfter {L : Type} (tl : Timeline L) (t : Time) : Except Err Int := do
  let c ← tl.wsPosition t
  tl.afterLoop t (tl.wsIdx.length + 1) c

/-- The loop of `get_ws_pos_by_ref_before`: core.py 979-990. -/
def Timeline.beforeLoop {L : Type} (tl : Timeline L) (t : Time) : Nat → Int → Except Err Int
  | 0, _ => .error .runtimeError
  | k + 1, c => match tl.wsRef c with
    | .error .indexError => .error .outOfBounds
    | .error e => .error e
    | .ok r =>
      if r ≤ t then .ok c
      else if c ≤ 0 then .error .outOfBounds
      else tl.beforeLoop t k (c - 1)

/-- `get_ws_pos_by_ref_before`: core.py 955-992. -/
def Timeline.posByRefBefore {L : Type} (tl : Timeline L) (t : Time) : Except Err Int := do
  let c ← tl.wsPosition t
  tl.beforeLoop t (tl.wsIdx.length + 1) c

/-- `reset`: core.py 998-1014. -/
def Timeline.reset {L : Type} (tl : Timeline L) (value : L) : Timeline L :=
  { tl with labels := tl.labels.map (fun _ => value) }

/-- The loop of `amend` collecting `amendments_located`: core.py 1047-1060.  `raising` is
`not_in_range == 'raise'`. -/
def Timeline.amendLocate {L : Type} (tl : Timeline L) (raising : Bool) :
    List (Time × L) → List (Int × L) → Except Err (List (Int × L))
  | [], acc => .ok acc
  | (t, v) :: rest, acc => match tl.wsPosition t with
    | .error .outOfBounds => if raising then .error .outOfBounds else tl.amendLocate raising rest acc
    | .error e => .error e
    | .ok loc =>
      if acc.any (fun p => p.1 == loc) then .error .keyError
      else tl.amendLocate raising rest (acc ++ [(loc, v)])

/-- `self._wsband.iloc[keys] = values`: core.py 1062-1063 (positions are non-negative). -/
def ilocAssign {L : Type} (labels : List L) (items : List (Int × L)) : List L :=
  items.foldl (fun ls p => ls.set p.1.toNat p.2) labels

/-- `amend`: core.py 1016-1063.  The amendments are the items of the dictionary, the keys converted to
timestamps. -/
def Timeline.amend {L : Type} (tl : Timeline L) (amendments : List (Time × L)) (raising : Bool := false) :
    Except Err (Timeline L) :=
  match tl.amendLocate raising amendments [] with
  | .error e => .error e
  | .ok located => .ok { tl with labels := ilocAssign tl.labels located }

/-- A row of the data frame: core.py 1115-1125. -/
structure Row (L : Type) where
  loc : Int
  wsRef : Time
  start : Time
  duration : Int
  stop : Time
  label : L
  deriving DecidableEq

/-- Put columns of equal length together; columns of different length make pandas raise ValueError
(core.py 1122). -/
def mkRows {L : Type} : List Int → List Time → List Time → List Int → List Time → List L → Except Err (List (Row L))
  | [], [], [], [], [], [] => .ok []
  | a :: as, b :: bs, c :: cs, d :: ds, e :: es, l :: ls => match mkRows as bs cs ds es ls with
    | .error err => .error err
    | .ok rows => .ok ({ loc := a, wsRef := b, start := c, duration := d, stop := e, label := l } :: rows)
  | _, _, _, _, _, _ => .error .valueError

/-- `ws_bounds`: core.py 1102-1106. -/
def Timeline.wsBounds {L : Type} (tl : Timeline L) (firstWs lastWs : Int) : List Int :=
  if lastWs = tl.len - 1 then tl.wsIdx.drop firstWs.toNat ++ [(tl.frame.n : Int)]
  else (tl.wsIdx.take (lastWs + 2).toNat).drop firstWs.toNat

/-- Differences of neighbours: core.py 1107-1108. -/
def diffs : List Int → List Int
  | a :: b :: rest => (b - a) :: diffs (b :: rest)
  | _ => []

/-- `to_dataframe` with both positions given: core.py 1065-1125. -/
def Timeline.toDataframe {L : Type} (tl : Timeline L) (firstWs lastWs : Int) : Except Err (List (Row L)) :=
  if ¬ (0 ≤ firstWs ∧ firstWs < tl.len ∧ 0 ≤ lastWs ∧ lastWs < tl.len) then .error .assertionError
  else
    let bounds := tl.wsBounds firstWs lastWs
    let starts := bounds.dropLast.map tl.frame.unitStart
    let ends := (bounds.drop 1).map (fun b => tl.frame.unitEnd (b - 1))
    mkRows (intRange firstWs (lastWs + 1)) (if tl.refEnd then ends else starts) starts (diffs bounds) ends
      ((tl.labels.take (lastWs + 1).toNat).drop firstWs.toNat)

/-- `_Schedule`: core.py 1128-1212.  Simplification: the selector is a total boolean function (any function: `Model/Selector.lean`). -/
structure Schedule (L : Type) where
  name : String
  selector : L → Bool
  onIdx : List Int
  offIdx : List Int

/-- Positions (from `i` on) whose label is selected: `nonzero(...)[0]` at core.py 1184-1186. -/
def nonzeroBy {L : Type} (sel : L → Bool) : List L → Int → List Int
  | [], _ => []
  | l :: ls, i => if sel l then i :: nonzeroBy sel ls (i + 1) else nonzeroBy sel ls (i + 1)

/-- `_Schedule.__init__`: core.py 1179-1186. -/
def Schedule.new {L : Type} (tl : Timeline L) (name : String) (selector : L → Bool) : Schedule L :=
  { name := name, selector := selector
    onIdx := nonzeroBy selector tl.labels 0
    offIdx := nonzeroBy (fun l => !selector l) tl.labels 0 }

/-- `_Schedule.index`: core.py 1200-1202. -/
def Timeline.index {L : Type} (tl : Timeline L) : List Int := intRange 0 tl.len

/-- `_Schedule.is_on_duty`: core.py 1207-1209 (the label is looked up in the timeline). -/
def Schedule.isOnDuty {L : Type} (s : Schedule L) (tl : Timeline L) (n : Int) : Except Err Bool := do
  let l ← tl.label n
  return s.selector l

/-- `_Schedule.is_off_duty`: core.py 1211-1212. -/
def Schedule.isOffDuty {L : Type} (s : Schedule L) (tl : Timeline L) (n : Int) : Except Err Bool := do
  let b ← s.isOnDuty tl n
  return !b

end TB
