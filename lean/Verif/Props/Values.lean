import Verif.Lemmas.Values
import Verif.Examples.Boards
/-! # C91: values of any kind given as arguments -/
namespace TB
variable {L : Type}

/-- `get_workshift` succeeds exactly when the first argument is a point in time (null counts as the end of the timeboard), the second is
a schedule or None, and the call with that point and that schedule succeeds; the result is the same. -/
theorem C91_workshift {tb : Timeboard L} (h : tb.Reachable) (v s : PyValue L) (w : Workshift L) :
    tb.getWorkshiftV v s = .ok w ↔
      ∃ t so, v.DenotesOrEnd tb.endTime t ∧ s.SchedArg so ∧ tb.getWorkshift t so = .ok w := by
  have hv := h.valid
  constructor
  · intro hw
    rcases hv.locateV_cases v with ⟨t, h1, _⟩ | ⟨_, _, h1⟩ | ⟨_, _, h1⟩
    · rcases s.sched_cases tb with ⟨so, h2⟩ | ⟨_, h2⟩
      · exact ⟨t, so, h1, h2, by rw [← hv.getWorkshiftV_eq h1 h2]; exact hw⟩
      · obtain ⟨e, h3, _⟩ := Timeboard.getWorkshiftV_wrong (v := v) h2
        rw [h3] at hw; cases hw
    · rw [Timeboard.getWorkshiftV_error h1] at hw; cases hw
    · rw [Timeboard.getWorkshiftV_error h1] at hw; cases hw
  · rintro ⟨t, so, h1, h2, h3⟩
    rw [hv.getWorkshiftV_eq h1 h2]; exact h3

/-- When it does not succeed: an unreadable string is ValueError, another value which is no point in time is TypeError, a point outside the timeboard
is OutOfBoundsError, whatever is passed as schedule; a wrong kind of schedule is TypeError. -/
theorem C91_workshift_errors {tb : Timeboard L} (h : tb.Reachable) (v s : PyValue L) :
    ((∀ t, ¬ v.DenotesOrEnd tb.endTime t) → (∃ x, v = .word x) → tb.getWorkshiftV v s = .error .valueError) ∧
    ((∀ t, ¬ v.DenotesOrEnd tb.endTime t) → (∀ x, v ≠ .word x) → tb.getWorkshiftV v s = .error .typeError) ∧
    (∀ t, v.DenotesOrEnd tb.endTime t → (t < tb.startTime ∨ tb.endTime < t) → tb.getWorkshiftV v s = .error .outOfBounds) ∧
    (∀ t, v.DenotesOrEnd tb.endTime t → tb.startTime ≤ t → t ≤ tb.endTime → (∀ so, ¬ s.SchedArg so) →
      tb.getWorkshiftV v s = .error .typeError) := by
  have hv := h.valid
  refine ⟨?_, ?_, ?_, ?_⟩
  · rintro h1 ⟨x, rfl⟩
    rcases hv.locateV_cases (.word x) with ⟨t, h2, _⟩ | ⟨_, _, h2⟩ | ⟨_, h2, _⟩
    · exact absurd h2 (h1 t)
    · exact Timeboard.getWorkshiftV_error h2
    · exact absurd rfl (h2 x)
  · intro h1 h2
    rcases hv.locateV_cases v with ⟨t, h3, _⟩ | ⟨_, ⟨x, h3⟩, _⟩ | ⟨_, _, h3⟩
    · exact absurd h3 (h1 t)
    · exact absurd h3 (h2 x)
    · exact Timeboard.getWorkshiftV_error h3
  · intro t h1 h2
    unfold Timeboard.getWorkshiftV
    rw [hv.locateV_eq h1]
    rcases h2 with h2 | h2
    · rw [hv.locate_left h2]
    · rw [hv.locate_right h2]
  · intro t h1 h2 h3 h4
    obtain ⟨k, hk⟩ := hv.at_exists (t := t) ⟨h2, h3⟩
    rcases s.sched_cases tb with ⟨so, h5⟩ | ⟨_, h5⟩
    · exact absurd h5 (h4 so)
    · unfold Timeboard.getWorkshiftV
      rw [hv.locateV_eq h1, hv.locate_at hk]
      simp only [Workshift.newV, h5]

/-- A null point in time is not rejected: it stands for the last workshift. -/
theorem C91_null_is_last {tb : Timeboard L} (h : tb.Reachable) {v s : PyValue L} (hn : v.Null) {so : Option (Schedule L)} (hs : s.SchedArg so) :
    ∃ w, tb.getWorkshiftV v s = .ok w ∧ w.loc = tb.timeline.len - 1 ∧ w.endTime tb = .ok tb.endTime ∧ tb.call1V v = .ok (.workshift
      { w with schedule := tb.defaultSchedule }) := by
  have hv := h.valid
  have h0 := hv.wf.len_pos
  obtain ⟨w, hw, h1, h2, _, _, h3, _⟩ := Workshift.exists_of_range hv so (k := tb.timeline.len - 1) (by omega) (by omega)
  have hg : ∀ so, tb.getWorkshift tb.endTime so = Workshift.new tb (tb.timeline.len - 1) so := by
    intro so
    unfold Timeboard.getWorkshift
    rw [hv.locate_at hv.at_end]
  refine ⟨w, ?_, h1, ?_, ?_⟩
  · rw [hv.getWorkshiftV_eq (.inr ⟨hn, rfl⟩) hs, hg]; exact hw
  · rw [h3]
    have := hv.wf.unitStart_bnd_len
    rw [show tb.timeline.len - 1 + 1 = tb.timeline.len by omega]
    unfold Timeboard.endTime
    rw [this]
    congr 1
    omega
  · unfold Timeboard.call1V
    rw [hv.getWorkshiftV_eq (.inr ⟨hn, rfl⟩) .pyNone, hg]
    unfold Workshift.new at hw ⊢
    cases hl : tb.timeline.label (tb.timeline.len - 1) with
    | error e => rw [hl] at hw; cases hw
    | ok l => rw [hl] at hw; cases hw; rfl

/-- `get_interval` succeeds exactly when its arguments can be read and the call with what they mean succeeds; the result is the same. -/
theorem C91_interval {tb : Timeboard L} (h : tb.Reachable) (ref length period closed s : PyValue L) (clip : Bool) (i : Interval L) :
    tb.getIntervalV ref length period clip closed s = .ok i ↔
      ∃ c r n f so, closed = .word c ∧ PyValue.Reading tb.endTime ref length period r n f ∧ s.SchedArg so ∧
        tb.getInterval r n f clip c.chars so = .ok i := by
  have hv := h.valid
  constructor
  · intro hi
    unfold Timeboard.getIntervalV at hi
    cases closed <;> first | (cases hi; done) | skip
    rename_i c
    simp only [PyValue.chars] at hi
    by_cases hc : c.chars ∉ ["00", "01", "10", "11"]
    · rw [if_pos hc] at hi; cases hi
    rw [if_neg hc] at hi
    rcases hv.intervalLocsV_cases ref length period with ⟨r, n, f, hr⟩ | ⟨_, e, _, he⟩
    · rcases s.sched_cases tb with ⟨so, hs⟩ | ⟨_, hs⟩
      · refine ⟨c, r, n, f, so, rfl, hr, hs, ?_⟩
        unfold Timeboard.getInterval
        rw [if_neg hc]
        simp only [hv.intervalLocsV_eq hr, Timeboard.finishIntervalV_eq hs] at hi
        exact hi
      · exfalso
        generalize tb.intervalLocsV .. = x at hi
        cases x with
        | error e => cases hi
        | ok locs =>
          simp only [Timeboard.finishIntervalV_wrong hs] at hi
          cases hq : tb.finishIntervalV locs .pyNone with
          | error e => rw [hq] at hi; cases hi
          | ok q => rw [hq] at hi; cases hi
    · rw [he] at hi; cases hi
  · rintro ⟨c, r, n, f, so, rfl, hr, hs, hi⟩
    unfold Timeboard.getInterval at hi
    unfold Timeboard.getIntervalV
    simp only [PyValue.chars]
    by_cases hc : c.chars ∉ ["00", "01", "10", "11"]
    · rw [if_pos hc] at hi; cases hi
    rw [if_neg hc] at hi ⊢
    simp only [hv.intervalLocsV_eq hr, Timeboard.finishIntervalV_eq hs]
    exact hi

/-- When it does not succeed.  `closed` is checked first; then arguments which cannot be read are TypeError, ValueError or
AttributeError (or VoidIntervalError, if the length is zero); readable ones give the error of the call with what they mean;
a wrong kind of schedule is TypeError unless there is another error. -/
theorem C91_interval_errors {tb : Timeboard L} (h : tb.Reachable) (ref length period closed s : PyValue L) (clip : Bool) :
    ((∀ c, closed = .word c → c.chars ∉ ["00", "01", "10", "11"]) → tb.getIntervalV ref length period clip closed s = .error .valueError) ∧
    (∀ c, closed = .word c → c.chars ∈ ["00", "01", "10", "11"] →
      ((∀ r n f, ¬ PyValue.Reading tb.endTime ref length period r n f) →
        ∃ e, tb.getIntervalV ref length period clip closed s = .error e ∧
          (e = .typeError ∨ e = .valueError ∨ e = .attributeError ∨ (e = .voidInterval ∧ length.Whole 0))) ∧
      (∀ r n f so, PyValue.Reading tb.endTime ref length period r n f → s.SchedArg so →
        tb.getIntervalV ref length period clip closed s = tb.getInterval r n f clip c.chars so) ∧
      (∀ r n f, PyValue.Reading tb.endTime ref length period r n f → (∀ so, ¬ s.SchedArg so) →
        tb.getIntervalV ref length period clip closed s = (match tb.getInterval r n f clip c.chars none with
          | .error e => .error e
          | .ok _ => .error .typeError))) := by
  have hv := h.valid
  refine ⟨?_, ?_⟩
  · intro hc
    unfold Timeboard.getIntervalV
    cases closed <;> first | rfl | skip
    rename_i c
    simp only [PyValue.chars]
    rw [if_pos (hc c rfl)]
  · rintro c rfl hc
    have hc' : ¬ c.chars ∉ ["00", "01", "10", "11"] := fun h => h hc
    refine ⟨?_, ?_, ?_⟩
    · intro hr
      rcases hv.intervalLocsV_cases ref length period with ⟨r, n, f, hr'⟩ | ⟨_, e, h1, h2⟩
      · exact absurd hr' (hr r n f)
      · refine ⟨e, ?_, ?_⟩
        · unfold Timeboard.getIntervalV
          simp only [PyValue.chars]
          rw [if_neg hc', h2]
        · rcases h1 with (h1 | h1 | h1) | h1
          · exact .inl h1
          · exact .inr (.inl h1)
          · exact .inr (.inr (.inl h1))
          · exact .inr (.inr (.inr h1))
    · intro r n f so hr hs
      unfold Timeboard.getIntervalV Timeboard.getInterval
      simp only [PyValue.chars]
      rw [if_neg hc', if_neg hc']
      simp only [hv.intervalLocsV_eq hr, Timeboard.finishIntervalV_eq hs]
      rfl
    · intro r n f hr hs
      have hs' : s.toSchedule tb = .error .typeError := by
        rcases s.sched_cases tb with ⟨so, h5⟩ | ⟨_, h5⟩
        · exact absurd h5 (hs so)
        · exact h5
      unfold Timeboard.getIntervalV Timeboard.getInterval
      simp only [PyValue.chars]
      rw [if_neg hc', if_neg hc']
      simp only [hv.intervalLocsV_eq hr]
      generalize tb.intervalLocs .. = x
      cases x with
      | error e => rfl
      | ok locs =>
        simp only
        rw [Timeboard.finishIntervalV_wrong hs', Timeboard.finishIntervalV_eq .pyNone]
        rfl

/-- A list of two or more is not a reference, though a tuple of the same values is. -/
theorem C91_list_reference {tb : Timeboard L} (a b : PyValue L) (rest : List (PyValue L)) (clip : Bool) (s : PyValue L) :
    tb.getIntervalV (.list (a :: b :: rest)) .pyNone .pyNone clip (.word { chars := "11" }) s = .error .valueError := rfl

/-- Calling a timeboard with one argument: a point in time (or null) gives the workshift, anything else is left to `get_interval`. -/
theorem C91_call {tb : Timeboard L} (h : tb.Reachable) (v : PyValue L) :
    (∀ t, v.DenotesOrEnd tb.endTime t → tb.call1V v = (match tb.getWorkshift t with
      | .ok w => .ok (.workshift w)
      | .error e => .error e)) ∧
    ((∀ t, ¬ v.DenotesOrEnd tb.endTime t) → tb.call1V v = tb.callNV v .pyNone .pyNone true (.word { chars := "11" }) .pyNone) := by
  have hv := h.valid
  constructor
  · intro t ht
    unfold Timeboard.call1V
    rw [hv.getWorkshiftV_eq ht .pyNone]
    have : (∃ w, tb.getWorkshift t = .ok w) ∨ tb.getWorkshift t = .error .outOfBounds := by
      unfold Timeboard.getWorkshift
      rcases hv.locate_none t with ⟨k, h1, h2⟩ | ⟨_, h2⟩ | ⟨_, h2⟩
      · simp only [h2]
        unfold Workshift.new
        cases tb.timeline.label k with
        | error e => exact .inr rfl
        | ok l => exact .inl ⟨_, rfl⟩
      · rw [h2]; exact .inr rfl
      · rw [h2]; exact .inr rfl
    rcases this with ⟨w, hw⟩ | hw
    · rw [hw]
    · rw [hw]
  · intro hn
    unfold Timeboard.call1V Timeboard.callNV
    rcases hv.locateV_cases v with ⟨t, h1, _⟩ | ⟨_, _, h1⟩ | ⟨_, _, h1⟩
    · exact absurd h1 (hn t)
    · rw [Timeboard.getWorkshiftV_error h1]
    · rw [Timeboard.getWorkshiftV_error h1]

/-- `Workshift(tb, location, schedule)`: the schedule is None or a schedule, the location an integer (booleans are not accepted), otherwise
TypeError. -/
theorem C91_new_workshift (tb : Timeboard L) (loc s : PyValue L) :
    (∀ n so, loc = .int n → s.SchedArg so → Workshift.newV tb loc s = Workshift.new tb n so) ∧
    (((∀ n, loc ≠ .int n) ∨ (∀ so, ¬ s.SchedArg so)) → Workshift.newV tb loc s = .error .typeError) := by
  constructor
  · rintro n so rfl hs
    exact Workshift.newV_eq hs n
  · intro h
    unfold Workshift.newV
    rcases s.sched_cases tb with ⟨so, h5⟩ | ⟨_, h5⟩
    · rcases h with h | h
      · rw [h5.toSchedule]
        cases loc <;> first | (exact absurd rfl (h _)) | rfl
      · exact absurd h5 (h so)
    · rw [h5]

/-- `Interval(tb, bounds, schedule)` (and the class of void intervals): the bounds are a sequence whose first two items are integers, booleans or
workshifts. -/
theorem C91_new_interval (tb : Timeboard L) (bounds s : PyValue L) (void : Bool) :
    (∀ b so, bounds.BoundsArg b → s.SchedArg so → Interval.makeV tb bounds s void = Interval.make tb b so void) ∧
    ((∀ b, ¬ bounds.BoundsArg b) → ∃ e, Interval.makeV tb bounds s void = .error e ∧
      (e = .typeError ∨ e = .indexError ∨ e = .outOfBounds)) ∧
    (∀ b, bounds.BoundsArg b → (∀ so, ¬ s.SchedArg so) → Interval.makeV tb bounds s void = (match Interval.make tb b none void with
      | .error e => .error e
      | .ok _ => .error .typeError)) := by
  refine ⟨fun b so h1 h2 => Interval.makeV_eq h1 h2 void, ?_, ?_⟩
  · intro h
    rcases bounds.bounds_cases tb with ⟨b, hb⟩ | ⟨_, h2⟩
    · exact absurd hb (h b)
    · exact h2 s void
  · intro b hb hs
    rcases s.sched_cases tb with ⟨so, h5⟩ | ⟨_, h5⟩
    · exact absurd h5 (hs so)
    · rw [Interval.makeV_wrong h5, Interval.makeV_eq hb .pyNone]
      rfl

/-- `ws + n`, `ws - n`: only whole numbers; anything else (a float, a string, a workshift) is TypeError. -/
theorem C91_arithmetic (w : Workshift L) (tb : Timeboard L) (v : PyValue L) :
    (∀ n, v.Whole n → w.addV tb v = w.add tb n ∧ w.subV tb v = w.sub tb n) ∧
    ((∀ n, ¬ v.Whole n) → w.addV tb v = .error .typeError ∧ w.subV tb v = .error .typeError) := by
  unfold Workshift.addV Workshift.subV
  constructor
  · intro n hn
    rw [hn.asInt]
    exact ⟨rfl, rfl⟩
  · intro hn
    rcases v.whole_cases with ⟨n, h⟩ | ⟨_, h⟩
    · exact absurd h (hn n)
    · rw [h]; exact ⟨rfl, rfl⟩

/-- Amendments: every key must be a point in time (null counts as the end of the timeboard); then the timeboard is the one with these points as keys. -/
theorem C91_amendments (a : Args L) (items : List (PyValue L × L)) (heap : Heap L) (r : Timeboard L × Heap L) :
    Timeboard.newV a (.dict items) heap = .ok r ↔
      ∃ ts, KeysRead r.1.endTime items ts ∧ Timeboard.new { a with amendments := ts } heap = .ok r := by
  unfold Timeboard.newV Timeboard.new
  simp only
  cases makeOrganizer a.layout with
  | error e => exact ⟨(fun h => by cases h), (fun ⟨_, _, h⟩ => by cases h)⟩
  | ok org =>
    simp only
    by_cases hw : a.worktimeSource ∉ ["duration", "labels"]
    · simp only [if_pos hw]
      exact ⟨(fun h => by cases h), (fun ⟨_, _, h⟩ => by cases h)⟩
    simp only [if_neg hw]
    cases hf : Frame.new a.freq a.start a.stop with
    | error e => exact ⟨(fun h => by cases h), (fun ⟨_, _, h⟩ => by cases h)⟩
    | ok frame =>
      simp only
      cases ht : Timeline.new frame (some org) a.refEnd a.defaultLabel heap with
      | error e => exact ⟨(fun h => by cases h), (fun ⟨_, _, h⟩ => by cases h)⟩
      | ok p =>
        obtain ⟨tl0, heap'⟩ := p
        have wf : tl0.WF := (Timeline.new_wf (Frame.new_valid hf) ht).1
        simp only [Timeline.amendV, Timeline.amend]
        constructor
        · intro h
          cases hl : tl0.amendLocateV false items [] with
          | error e => rw [hl] at h; cases h
          | ok located =>
            obtain ⟨ts, hts⟩ := Timeline.amendLocateV_ok _ _ _ _ hl
            refine ⟨ts, ?_, ?_⟩
            · rw [hl] at h; cases h; exact hts
            · rw [← wf.amendLocateV_eq false hts []]; exact h
        · rintro ⟨ts, hts, h⟩
          cases hl : tl0.amendLocate false ts [] with
          | error e => rw [hl] at h; cases h
          | ok located =>
            have hts' : KeysRead tl0.frame.endTime items ts := by rw [hl] at h; cases h; exact hts
            rw [wf.amendLocateV_eq false hts' []]; exact h

/-- Without amendments (None) the timeboard is the one with no amendments; something without `items` is TypeError, noticed after a wrong layout
and before anything else. -/
theorem C91_amendments_kind (a : Args L) (heap : Heap L) :
    Timeboard.newV a .none heap = Timeboard.new { a with amendments := [] } heap ∧
    Timeboard.newV a .noItems heap = .error .typeError := by
  unfold Timeboard.newV Timeboard.new
  constructor
  · rfl
  · cases hl : makeOrganizer a.layout with
    | ok o => rfl
    | error e =>
      have : e = .typeError := by
        unfold makeOrganizer at hl
        split at hl <;> cases hl <;> rfl
      rw [this]

/-- `Organizer(marker, marks, structure)`: exactly one of the first two, otherwise ValueError; the structure iterable and not a string, otherwise TypeError.
A frequency as marker is `Marker(each=frequency)`, a single mark is a list of one mark. -/
theorem C91_organizer (marker : Option MarkerArg) (marks : Option MarksArg) (st : StructureArg L) :
    (marker.isSome = marks.isSome → organizerV marker marks st = .error .valueError) ∧
    (marker.isSome ≠ marks.isSome → st = .notIterable → organizerV marker marks st = .error .typeError) ∧
    (∀ ls, st = .elems ls →
      (∀ m, marker = some (.marker m) → marks = none → organizerV marker marks st = .ok (.organizer (.marker m) ls)) ∧
      (∀ f, marker = some (.freq f) → marks = none → organizerV marker marks st = .ok (.organizer (.marker { each := f, ats := [] }) ls)) ∧
      (∀ t, marker = none → marks = some (.one t) → organizerV marker marks st = .ok (.organizer (.marks [t]) ls)) ∧
      (∀ ts, marker = none → marks = some (.many ts) → organizerV marker marks st = .ok (.organizer (.marks ts) ls))) := by
  refine ⟨?_, ?_, ?_⟩
  · intro h; cases marker <;> cases marks <;> first | rfl | (cases h; done)
  · rintro h rfl; cases marker <;> cases marks <;> first | rfl | (exact absurd rfl h)
  · rintro ls rfl
    refine ⟨?_, ?_, ?_, ?_⟩
    · rintro m rfl rfl; rfl
    · rintro m rfl rfl; rfl
    · rintro m rfl rfl; rfl
    · rintro m rfl rfl; rfl

/-! ### Cases -/
open Ex

/-- '03 Jan 2017' as a string. -/
private def jan3 : PyValue Int := .word { chars := "03 Jan 2017", time := some (date 2017 1 3) }
/-- A string which is neither a point in time nor a frequency. -/
private def bad : PyValue Int := .word { chars := "bad" }
private def closed11 : PyValue Int := .word { chars := "11" }
private def weekly : PyValue Int := .word { chars := "W", freq := some fW }

private def locOf : Except Err (Workshift Int) → Except Err Int
  | .ok w => .ok w.loc
  | .error e => .error e
private def locsOf : Except Err (Interval Int) → Except Err (Int × Int)
  | .ok i => .ok (i.lo, i.hi)
  | .error e => .error e

#guard locOf (week.getWorkshiftV jan3 .pyNone) == .ok 2
#guard locOf (week.getWorkshiftV .pyNone .pyNone) == .ok 30
#guard locOf (week.getWorkshiftV bad .pyNone) == .error .valueError
#guard locOf (week.getWorkshiftV (.tuple [jan3, jan3]) .pyNone) == .error .typeError
#guard locOf (week.getWorkshiftV jan3 bad) == .error .typeError
#guard locsOf (week.getIntervalV (.tuple [jan3, .pyNone]) .pyNone .pyNone true closed11 .pyNone) == .ok (2, 30)
#guard locsOf (week.getIntervalV (.list [jan3, .pyNone]) .pyNone .pyNone true closed11 .pyNone) == .error .valueError
#guard locsOf (week.getIntervalV jan3 .pyNone .pyNone true closed11 .pyNone) == .error .typeError
#guard locsOf (week.getIntervalV jan3 (.int 5) .pyNone true closed11 .pyNone) == .ok (2, 6)
#guard locsOf (week.getIntervalV .pyNone (.int (-3)) .pyNone true closed11 .pyNone) == .ok (28, 30)
#guard locsOf (week.getIntervalV jan3 jan3 .pyNone true closed11 .pyNone) == .error .typeError
#guard locsOf (week.getIntervalV jan3 .pyNone weekly true closed11 .pyNone) == .ok (1, 7)
#guard locsOf (week.getIntervalV jan3 .pyNone bad true closed11 .pyNone) == .error .valueError
#guard locsOf (week.getIntervalV .pyNone .pyNone weekly true closed11 .pyNone) == .error .attributeError
#guard locsOf (week.getIntervalV jan3 (.int 5) .pyNone true (.int 11) .pyNone) == .error .valueError
#guard locsOf (Interval.makeV week (.list [.workshift 2 0, .int 4]) .pyNone false) == .ok (2, 4)
#guard locsOf (Interval.makeV week (.int 4) .pyNone false) == .error .typeError
#guard locsOf (Interval.makeV week (.tuple [.int 4]) .pyNone false) == .error .indexError
#guard locOf (Workshift.newV week (.int 4) .pyNone) == .ok 4
#guard locOf (Workshift.newV week (.bool true) .pyNone) == .error .typeError

example : jan3.DenotesOrEnd week.endTime (date 2017 1 3) ∧ (PyValue.pyNone : PyValue Int).SchedArg none :=
  ⟨.inl (.word rfl), .pyNone⟩

example : PyValue.Reading week.endTime (.tuple [jan3, .pyNone]) .pyNone .pyNone (some (.pair (some (date 2017 1 3)) none)) none none :=
  .pair [] (.point (.word rfl)) (.null .pyNone)

example : KeysRead (date 2017 1 31) [(jan3, (5 : Int)), (.pyNone, 6)] [(date 2017 1 3, 5), (date 2017 1 31, 6)] :=
  .cons (.inl (.word rfl)) (.cons (.inr ⟨.pyNone, rfl⟩) .nil)

#guard match Timeboard.newV weekArgs (.dict [(jan3, 5), (.pyNone, 6)]) heap0 with
  | .ok (tb, _) => tb.timeline.labels[2]? == some 5 && tb.timeline.labels[30]? == some 6
  | .error _ => false
#guard match Timeboard.newV weekArgs (.dict [(jan3, 5), (bad, 6)]) heap0 with
  | .ok _ => false
  | .error e => e == .valueError

end TB
