import Verif.Spec.Values
import Verif.Lemmas.GetInterval
/-! Lemmas on arguments of any kind. -/
namespace TB
variable {L : Type}

/-! ### Points in time -/

theorem PyValue.Denotes.timestamp {v : PyValue L} {t : Time} (h : v.Denotes t) : v.timestamp = .ok (some t) := by
  cases h <;> first | rfl | skip
  rename_i h
  simp only [PyValue.timestamp, h]

theorem PyValue.Null.timestamp {v : PyValue L} (h : v.Null) : v.timestamp = .ok none := by cases h <;> rfl

theorem PyValue.Null.isNull {v : PyValue L} (h : v.Null) : v.isNull = true := by cases h <;> rfl

theorem PyValue.isNull_iff {v : PyValue L} : v.isNull = true ↔ v.Null := by
  constructor
  · intro h
    cases v <;> first | exact .pyNone | exact .nat | (cases h)
  · exact PyValue.Null.isNull

theorem PyValue.Denotes.not_null {v : PyValue L} {t : Time} (h : v.Denotes t) : v.isNull = false := by cases h <;> rfl

/-- The ways a value can be taken for a point in time. -/
theorem PyValue.timestamp_cases (v : PyValue L) :
    (∃ t, v.Denotes t) ∨ v.Null ∨
    ((∀ t, ¬ v.Denotes t) ∧ ¬ v.Null ∧ ((∃ s, v = .word s) ∧ v.timestamp = .error .valueError)) ∨
    ((∀ t, ¬ v.Denotes t) ∧ ¬ v.Null ∧ ((∀ s, v ≠ .word s) ∧ v.timestamp = .error .typeError)) := by
  cases v with
  | pyNone => exact .inr (.inl .pyNone)
  | nat => exact .inr (.inl .nat)
  | int n => exact .inl ⟨_, .int n⟩
  | float t => exact .inl ⟨_, .float t⟩
  | time t => exact .inl ⟨_, .time t⟩
  | period p => exact .inl ⟨_, .period p⟩
  | workshift l r => exact .inl ⟨_, .workshift l r⟩
  | word s =>
    cases hs : s.time with
    | some t => exact .inl ⟨t, .word hs⟩
    | none =>
      refine .inr (.inr (.inl ⟨?_, ?_, ⟨s, rfl⟩, ?_⟩))
      · intro t h; cases h with | word h => rw [hs] at h; cases h
      · intro h; cases h
      · simp only [PyValue.timestamp, hs]
  | bool b => exact .inr (.inr (.inr ⟨(fun t h => by cases h), (fun h => by cases h), (fun s h => by cases h), rfl⟩))
  | schedule b => exact .inr (.inr (.inr ⟨(fun t h => by cases h), (fun h => by cases h), (fun s h => by cases h), rfl⟩))
  | tuple b => exact .inr (.inr (.inr ⟨(fun t h => by cases h), (fun h => by cases h), (fun s h => by cases h), rfl⟩))
  | list b => exact .inr (.inr (.inr ⟨(fun t h => by cases h), (fun h => by cases h), (fun s h => by cases h), rfl⟩))
  | object => exact .inr (.inr (.inr ⟨(fun t h => by cases h), (fun h => by cases h), (fun s h => by cases h), rfl⟩))

theorem Timeline.WF.wsPositionNull_eq {tl : Timeline L} (wf : tl.WF) : tl.wsPositionNull = tl.wsPosition tl.frame.endTime := by
  have hn : 0 < tl.frame.n := wf.npos
  have h : tl.frame.getLoc tl.frame.endTime = .ok ((tl.frame.n : Int) - 1) := by
    rw [Frame.getLoc_ok_iff]
    refine ⟨by omega, by omega, ?_, Int.le_refl _⟩
    have := Frame.unitStart_lt (f := tl.frame) (i := (tl.frame.n : Int) - 1) (j := tl.frame.n) (by omega)
    have h2 : tl.frame.endTime = tl.frame.unitEnd ((tl.frame.n : Int) - 1) := rfl
    have h3 : tl.frame.unitEnd ((tl.frame.n : Int) - 1) = tl.frame.unitStart ((tl.frame.n : Int) - 1 + 1) - 1 := Frame.unitEnd_eq ..
    rw [show (tl.frame.n : Int) - 1 + 1 = tl.frame.n by omega] at h3
    omega
  unfold Timeline.wsPositionNull Timeline.wsPosition
  simp only [h]
  rfl

theorem Timeboard.Valid.locateV_eq {tb : Timeboard L} (hv : tb.Valid) {v : PyValue L} {t : Time} (h : v.DenotesOrEnd tb.endTime t) :
    tb.locateV v = tb.locate t := by
  unfold Timeboard.locateV
  rcases h with h | ⟨h, rfl⟩
  · rw [h.timestamp]
  · rw [h.timestamp]
    have h1 := hv.locate_at hv.at_end
    have h2 := hv.at_iff.1 hv.at_end
    unfold Timeboard.endTime at h2
    rw [h1]
    simp only [hv.wf.wsPositionNull_eq, h2]

theorem Timeboard.locateV_error {tb : Timeboard L} {v : PyValue L} {e : Err} (h : v.timestamp = .error e) : tb.locateV v = .error e := by
  unfold Timeboard.locateV
  rw [h]

/-- `_locate` on any value. -/
theorem Timeboard.Valid.locateV_cases {tb : Timeboard L} (hv : tb.Valid) (v : PyValue L) :
    (∃ t, v.DenotesOrEnd tb.endTime t ∧ tb.locateV v = tb.locate t) ∨
    ((∀ t, ¬ v.DenotesOrEnd tb.endTime t) ∧ (∃ s, v = .word s) ∧ tb.locateV v = .error .valueError) ∨
    ((∀ t, ¬ v.DenotesOrEnd tb.endTime t) ∧ (∀ s, v ≠ .word s) ∧ tb.locateV v = .error .typeError) := by
  rcases v.timestamp_cases with ⟨t, h⟩ | h | ⟨h1, h2, h3, h4⟩ | ⟨h1, h2, h3, h4⟩
  · exact .inl ⟨t, .inl h, hv.locateV_eq (.inl h)⟩
  · exact .inl ⟨_, .inr ⟨h, rfl⟩, hv.locateV_eq (.inr ⟨h, rfl⟩)⟩
  · refine .inr (.inl ⟨?_, h3, Timeboard.locateV_error h4⟩)
    rintro t (h | ⟨h, _⟩)
    · exact h1 t h
    · exact h2 h
  · refine .inr (.inr ⟨?_, h3, Timeboard.locateV_error h4⟩)
    rintro t (h | ⟨h, _⟩)
    · exact h1 t h
    · exact h2 h

/-! ### Schedules -/

theorem PyValue.SchedArg.toSchedule {tb : Timeboard L} {s : PyValue L} {so : Option (Schedule L)} (h : s.SchedArg so) :
    s.toSchedule tb = .ok (so.getD tb.defaultSchedule) := by cases h <;> rfl

theorem PyValue.sched_cases (tb : Timeboard L) (s : PyValue L) :
    (∃ so, s.SchedArg so) ∨ ((∀ so, ¬ s.SchedArg so) ∧ s.toSchedule tb = .error .typeError) := by
  cases s
  case pyNone => exact .inl ⟨_, .pyNone⟩
  case schedule s => exact .inl ⟨_, .schedule s⟩
  all_goals exact .inr ⟨(fun so h => by cases h), rfl⟩

theorem Workshift.newV_eq {tb : Timeboard L} {s : PyValue L} {so : Option (Schedule L)} (h : s.SchedArg so) (n : Int) :
    Workshift.newV tb (.int n) s = Workshift.new tb n so := by
  unfold Workshift.newV
  simp only [h.toSchedule]
  rfl

theorem Timeboard.Valid.getWorkshiftV_eq {tb : Timeboard L} (hv : tb.Valid) {v s : PyValue L} {t : Time} {so : Option (Schedule L)}
    (h : v.DenotesOrEnd tb.endTime t) (hs : s.SchedArg so) : tb.getWorkshiftV v s = tb.getWorkshift t so := by
  unfold Timeboard.getWorkshiftV Timeboard.getWorkshift
  rw [hv.locateV_eq h]
  cases tb.locate t with
  | error e => rfl
  | ok loc =>
    simp only
    cases loc.pos with
    | none => rfl
    | some p => exact Workshift.newV_eq hs p

theorem Timeboard.getWorkshiftV_error {tb : Timeboard L} {v s : PyValue L} {e : Err} (h : tb.locateV v = .error e) :
    tb.getWorkshiftV v s = .error e := by
  unfold Timeboard.getWorkshiftV
  rw [h]

theorem Timeboard.getWorkshiftV_wrong {tb : Timeboard L} {v s : PyValue L} (h : s.toSchedule tb = .error .typeError) :
    ∃ e, tb.getWorkshiftV v s = .error e ∧ (e = .typeError ∨ tb.locateV v = .error e ∨ e = .outOfBounds) := by
  unfold Timeboard.getWorkshiftV
  cases tb.locateV v with
  | error e => exact ⟨e, rfl, .inr (.inl rfl)⟩
  | ok loc =>
    simp only
    cases loc.pos with
    | none => exact ⟨_, rfl, .inr (.inr rfl)⟩
    | some p =>
      simp only [Workshift.newV, h]
      exact ⟨_, rfl, .inl rfl⟩

/-! ### Whole numbers -/

theorem PyValue.Whole.asInt {v : PyValue L} {n : Int} (h : v.Whole n) : v.asInt = some n := by cases h <;> rfl

theorem PyValue.asInt_iff {v : PyValue L} {n : Int} : v.asInt = some n ↔ v.Whole n := by
  constructor
  · intro h
    cases v <;> first | (cases h; done) | skip
    case bool b => cases b <;> (cases h; first | exact .true | exact .false)
    case int m => cases h; exact .int _
  · exact PyValue.Whole.asInt

theorem PyValue.whole_cases (v : PyValue L) : (∃ n, v.Whole n) ∨ ((∀ n, ¬ v.Whole n) ∧ v.asInt = none) := by
  cases h : v.asInt with
  | some n => exact .inl ⟨n, PyValue.asInt_iff.1 h⟩
  | none => exact .inr ⟨(fun n hn => by rw [hn.asInt] at h; cases h), rfl⟩

/-! ### Intervals -/

theorem PyValue.BoundArg.null_or {v : PyValue L} {x : Option Time} (h : v.BoundArg x) :
    (v.isNull = true ∧ x = none) ∨ (v.isNull = false ∧ ∃ t, x = some t ∧ v.Denotes t) := by
  cases h with
  | null h => exact .inl ⟨h.isNull, rfl⟩
  | point h => exact .inr ⟨h.not_null, _, rfl, h⟩

/-- One bound of an interval, in the two models. -/
theorem Timeboard.Valid.boundV_eq {tb : Timeboard L} (hv : tb.Valid) {v : PyValue L} {x : Option Time} (h : v.BoundArg x) (l : Location) :
    (if v.isNull then .ok l else tb.locateV v) = (match (generalizing := false) x with
      | none => .ok l
      | some t => tb.locate t) := by
  rcases h.null_or with ⟨h1, rfl⟩ | ⟨h1, t, rfl, h2⟩
  · rw [h1]; rfl
  · rw [h1]
    simp only [Bool.false_eq_true, if_false]
    exact hv.locateV_eq (.inl h2)

theorem PyValue.bound_cases {tb : Timeboard L} (hv : tb.Valid) (v : PyValue L) (l : Location) :
    (∃ x, v.BoundArg x) ∨ ((∀ x, ¬ v.BoundArg x) ∧ ∃ e, (e = .typeError ∨ e = .valueError) ∧
      (if v.isNull then .ok l else tb.locateV v) = .error e) := by
  rcases v.timestamp_cases with ⟨t, h⟩ | h | ⟨h1, h2, _, h4⟩ | ⟨h1, h2, _, h4⟩
  · exact .inl ⟨_, .point h⟩
  · exact .inl ⟨_, .null h⟩
  · have hn : v.isNull = false := by
      cases hb : v.isNull with
      | false => rfl
      | true => exact absurd (PyValue.isNull_iff.1 hb) h2
    refine .inr ⟨?_, .valueError, .inr rfl, ?_⟩
    · rintro x (h | h)
      · exact h2 h
      · exact h1 _ h
    · rw [hn]; exact Timeboard.locateV_error h4
  · have hn : v.isNull = false := by
      cases hb : v.isNull with
      | false => rfl
      | true => exact absurd (PyValue.isNull_iff.1 hb) h2
    refine .inr ⟨?_, .typeError, .inl rfl, ?_⟩
    · rintro x (h | h)
      · exact h2 h
      · exact h1 _ h
    · rw [hn]; exact Timeboard.locateV_error h4

theorem Timeboard.Valid.locsFromReferenceV_pair {tb : Timeboard L} (hv : tb.Valid) {a b : PyValue L} {x y : Option Time} (rest : List (PyValue L))
    (ha : a.BoundArg x) (hb : b.BoundArg y) (dh dt : Bool) :
    tb.locsFromReferenceV (.tuple (a :: b :: rest)) dh dt = tb.locsFromReference (some (.pair x y)) dh dt := by
  unfold Timeboard.locsFromReferenceV Timeboard.locsFromReference
  have hT : (PyValue.tuple (a :: b :: rest)).testNull = .ok false := rfl
  simp only [hT, PyValue.asSeq, hv.boundV_eq ha, hv.boundV_eq hb]
  cases x with
  | none =>
    simp only [Bind.bind, Except.bind, pure, Except.pure]
    cases y with
    | none => rfl
    | some t => simp only; cases tb.locate t <;> rfl
  | some t0 =>
    simp only
    cases tb.locate t0 with
    | error e => rfl
    | ok l =>
      simp only [Bind.bind, Except.bind, pure, Except.pure]
      cases y with
      | none => rfl
      | some t => simp only; cases tb.locate t <;> rfl

theorem Timeboard.locsFromReferenceV_other {tb : Timeboard L} {v : PyValue L} (h1 : v.testNull = .ok false)
    (h2 : ∀ a b rest, v.asSeq ≠ some (a :: b :: rest)) (dh dt : Bool) : tb.locsFromReferenceV v dh dt = .error .typeError := by
  unfold Timeboard.locsFromReferenceV
  simp only [h1]

theorem Timeboard.Valid.locsByLengthV_eq {tb : Timeboard L} (hv : tb.Valid) {ref length : PyValue L} {t : Time} {n : Int}
    (hr : ref.DenotesOrEnd tb.endTime t) (hl : length.Whole n) (dh dt : Bool) :
    tb.locsByLengthV ref length dh dt = tb.locsByLength (some (.point t)) n dh dt := by
  unfold Timeboard.locsByLengthV Timeboard.locsByLength
  simp only [hl.asInt, hv.locateV_eq hr, Option.bind, IvlRef.toTime?]
  rfl

theorem PyValue.toPeriod_denotes {ref : PyValue L} {t : Time} (hr : ref.Denotes t) (hp : ∀ p, ref ≠ .period p) {period : PyValue L} {f : Freq}
    (hf : period.FreqArg (some f)) : ref.toPeriod period = .ok (Period.ofTime f t) := by
  cases hf with
  | word h =>
    rename_i s
    cases s with
    | mk c ti fr =>
      simp only at h
      subst h
      cases hr with
      | period p => exact absurd rfl (hp p)
      | word h => simp only [PyValue.toPeriod, PyValue.timestamp, h]
      | int n => rfl
      | float n => rfl
      | time n => rfl
      | workshift n r => rfl

theorem Timeboard.intervalLocsV_length {tb : Timeboard L} {ref length : PyValue L} (h : length ≠ .pyNone) (clip dh dt : Bool) :
    tb.intervalLocsV ref length .pyNone clip dh dt = tb.locsByLengthV ref length dh dt := by
  cases length <;> first | (exact absurd rfl h) | rfl

theorem Timeboard.intervalLocsV_period {tb : Timeboard L} {ref period : PyValue L} (h : period ≠ .pyNone) (clip dh dt : Bool) :
    tb.intervalLocsV ref .pyNone period clip dh dt = (match ref.toPeriod period with
      | .error e => .error e
      | .ok p => tb.locsByPeriod p clip dh dt) := by
  cases period <;> first | (exact absurd rfl h) | rfl

theorem Timeboard.intervalLocsV_both {tb : Timeboard L} {ref length period : PyValue L} (h : length ≠ .pyNone) (h' : period ≠ .pyNone)
    (clip dh dt : Bool) : tb.intervalLocsV ref length period clip dh dt = .error .typeError := by
  cases length <;> cases period <;> first | (exact absurd rfl h) | (exact absurd rfl h') | rfl

theorem PyValue.Whole.ne_none {v : PyValue L} {n : Int} (h : v.Whole n) : v ≠ .pyNone := by cases h <;> exact (fun h => by cases h)

theorem PyValue.FreqArg.ne_none {v : PyValue L} {f : Freq} (h : v.FreqArg (some f)) : v ≠ .pyNone := by cases h; exact (fun h => by cases h)

theorem Timeboard.Valid.intervalLocsV_eq {tb : Timeboard L} (hv : tb.Valid) {ref length period : PyValue L} {r : Option IvlRef} {n : Option Int}
    {f : Option Freq} (h : PyValue.Reading tb.endTime ref length period r n f) (clip dh dt : Bool) :
    tb.intervalLocsV ref length period clip dh dt = tb.intervalLocs r n f clip dh dt := by
  cases h with
  | whole h => cases h <;> rfl
  | wholeList h => cases h <;> rfl
  | pair rest ha hb =>
    simp only [Timeboard.intervalLocsV, Timeboard.intervalLocs, hv.locsFromReferenceV_pair rest ha hb]
    generalize tb.locsFromReference _ dh dt = r
    cases r with
    | error e => cases e <;> rfl
    | ok l => rfl
  | period p => rfl
  | length hr hl =>
    rw [Timeboard.intervalLocsV_length hl.ne_none, hv.locsByLengthV_eq hr hl]
    rfl
  | byFreq hr hp hf =>
    rw [Timeboard.intervalLocsV_period hf.ne_none, PyValue.toPeriod_denotes hr hp hf]
    rfl
  | periodAnyFreq p h =>
    rw [Timeboard.intervalLocsV_period h]
    rfl

/-- The errors of a reference or a period which cannot be read. -/
def Unread (e : Err) : Prop := e = .typeError ∨ e = .valueError ∨ e = .attributeError

theorem PyValue.toPeriod_cases (ref period : PyValue L) :
    (∃ p, ref = .period p) ∨ (∃ t f, ref.Denotes t ∧ (∀ p, ref ≠ .period p) ∧ period.FreqArg (some f)) ∨
    ((∀ p, ref ≠ .period p) ∧ (∀ t f, ref.Denotes t → ¬ period.FreqArg (some f)) ∧ ∃ e, ref.toPeriod period = .error e ∧ Unread e) := by
  by_cases hp : ∃ p, ref = .period p
  · exact .inl hp
  have hp' : ∀ p, ref ≠ .period p := fun p h => hp ⟨p, h⟩
  by_cases h : ∃ t f, ref.Denotes t ∧ period.FreqArg (some f)
  · obtain ⟨t, f, h1, h2⟩ := h
    exact .inr (.inl ⟨t, f, h1, hp', h2⟩)
  refine .inr (.inr ⟨hp', (fun t f h1 h2 => h ⟨t, f, h1, h2⟩), ?_⟩)
  have key : ref.toPeriod period = (match (generalizing := false) period with
    | .pyNone => .error .typeError
    | _ => match ref.timestamp with
      | .error e => .error e
      | .ok t? => match (generalizing := false) period with
        | .word { freq := some f, .. } => match t? with
          | some t => .ok (Period.ofTime f t)
          | none => .error .attributeError
        | _ => .error .valueError) := by
    cases ref <;> first | (exact absurd rfl (hp' _)) | rfl
  rw [key]
  have hts : ∀ t, ref.timestamp = .ok (some t) → ref.Denotes t := by
    intro t ht
    rcases ref.timestamp_cases with ⟨t', h⟩ | h | ⟨_, _, _, h4⟩ | ⟨_, _, _, h4⟩
    · rw [h.timestamp] at ht; cases ht; exact h
    · rw [h.timestamp] at ht; cases ht
    · rw [h4] at ht; cases ht
    · rw [h4] at ht; cases ht
  have hte : ∀ e, ref.timestamp = .error e → Unread e := by
    intro e ht
    rcases ref.timestamp_cases with ⟨t', h⟩ | h | ⟨_, _, _, h4⟩ | ⟨_, _, _, h4⟩
    · rw [h.timestamp] at ht; cases ht
    · rw [h.timestamp] at ht; cases ht
    · rw [h4] at ht; cases ht; exact .inr (.inl rfl)
    · rw [h4] at ht; cases ht; exact .inl rfl
  cases hts' : ref.timestamp with
  | error e =>
    cases period <;> first | exact ⟨_, rfl, .inl rfl⟩ | exact ⟨e, rfl, hte e hts'⟩
  | ok t? =>
    cases period <;> first | exact ⟨_, rfl, .inl rfl⟩ | exact ⟨_, rfl, .inr (.inl rfl)⟩ | skip
    rename_i s
    obtain ⟨c, ti, fr⟩ := s
    cases fr with
    | none => exact ⟨_, rfl, .inr (.inl rfl)⟩
    | some f =>
      cases t? with
      | none => exact ⟨_, rfl, .inr (.inr rfl)⟩
      | some t => exact absurd ⟨t, f, hts t hts', .word rfl⟩ h

theorem Timeboard.Valid.locsFromReferenceV_cases {tb : Timeboard L} (hv : tb.Valid) (ref : PyValue L) :
    ref.Null ∨ (∃ x : PyValue L, x.Null ∧ ref = .list [x]) ∨ (∃ a b x y rest, a.BoundArg x ∧ b.BoundArg y ∧ ref = .tuple (a :: b :: rest)) ∨
    (∃ p, ref = .period p) ∨
    ((¬ ref.Null) ∧ (∀ x : PyValue L, x.Null → ref ≠ .list [x]) ∧
      (∀ a b x y rest, a.BoundArg x → b.BoundArg y → ref ≠ .tuple (a :: b :: rest)) ∧ (∀ p, ref ≠ .period p) ∧
      ∃ e, (e = .typeError ∨ e = .valueError) ∧ ∀ dh dt, tb.locsFromReferenceV ref dh dt = .error e) := by
  have other : ∀ v : PyValue L, v.testNull = .ok false → (∀ a b rest, v.asSeq ≠ some (a :: b :: rest)) →
      ∃ e, (e = Err.typeError ∨ e = .valueError) ∧ ∀ dh dt, tb.locsFromReferenceV v dh dt = .error e :=
    fun v h1 h2 => ⟨_, .inl rfl, Timeboard.locsFromReferenceV_other h1 h2⟩
  have simple : ∀ v : PyValue L, v.testNull = .ok false → v.asSeq = none → ¬ v.Null → (∀ p, v ≠ .period p) →
      ((¬ v.Null) ∧ (∀ x : PyValue L, x.Null → v ≠ .list [x]) ∧
      (∀ a b x y rest, a.BoundArg x → b.BoundArg y → v ≠ .tuple (a :: b :: rest)) ∧ (∀ p, v ≠ .period p) ∧
      ∃ e, (e = .typeError ∨ e = .valueError) ∧ ∀ dh dt, tb.locsFromReferenceV v dh dt = .error e) := by
    intro v h1 h2 h3 h4
    refine ⟨h3, ?_, ?_, h4, other v h1 (fun a b rest h => by rw [h2] at h; cases h)⟩
    · intro x _ h; rw [h] at h2; cases h2
    · intro a b x y rest _ _ h; rw [h] at h2; cases h2
  cases ref with
  | pyNone => exact .inl .pyNone
  | nat => exact .inl .nat
  | period p => exact .inr (.inr (.inr (.inl ⟨p, rfl⟩)))
  | bool b => exact .inr (.inr (.inr (.inr (simple _ rfl rfl (fun h => by cases h) (fun p h => by cases h)))))
  | int b => exact .inr (.inr (.inr (.inr (simple _ rfl rfl (fun h => by cases h) (fun p h => by cases h)))))
  | float b => exact .inr (.inr (.inr (.inr (simple _ rfl rfl (fun h => by cases h) (fun p h => by cases h)))))
  | word b => exact .inr (.inr (.inr (.inr (simple _ rfl rfl (fun h => by cases h) (fun p h => by cases h)))))
  | time b => exact .inr (.inr (.inr (.inr (simple _ rfl rfl (fun h => by cases h) (fun p h => by cases h)))))
  | workshift a b => exact .inr (.inr (.inr (.inr (simple _ rfl rfl (fun h => by cases h) (fun p h => by cases h)))))
  | schedule b => exact .inr (.inr (.inr (.inr (simple _ rfl rfl (fun h => by cases h) (fun p h => by cases h)))))
  | object => exact .inr (.inr (.inr (.inr (simple _ rfl rfl (fun h => by cases h) (fun p h => by cases h)))))
  | list xs =>
    match xs with
    | [] =>
      refine .inr (.inr (.inr (.inr ⟨(fun h => by cases h), (fun x _ h => by cases h), (fun a b x y rest _ _ h => by cases h),
        (fun p h => by cases h), other _ rfl (fun a b rest h => by cases h)⟩)))
    | [x] =>
      cases hx : x.isNull with
      | true => exact .inr (.inl ⟨x, PyValue.isNull_iff.1 hx, rfl⟩)
      | false =>
        refine .inr (.inr (.inr (.inr ⟨(fun h => by cases h), ?_, (fun a b x y rest _ _ h => by cases h),
          (fun p h => by cases h), other _ ?_ (fun a b rest h => by cases h)⟩)))
        · intro y hy h
          cases h
          rw [hy.isNull] at hx; cases hx
        · simp only [PyValue.testNull, hx]
    | a :: b :: rest =>
      exact .inr (.inr (.inr (.inr ⟨(fun h => by cases h), (fun x _ h => by cases h), (fun a b x y rest _ _ h => by cases h),
        (fun p h => by cases h), _, .inr rfl, (fun dh dt => rfl)⟩)))
  | tuple xs =>
    match xs with
    | [] =>
      refine .inr (.inr (.inr (.inr ⟨(fun h => by cases h), (fun x _ h => by cases h), (fun a b x y rest _ _ h => by cases h),
        (fun p h => by cases h), other _ rfl (fun a b rest h => by cases h)⟩)))
    | [x] =>
      refine .inr (.inr (.inr (.inr ⟨(fun h => by cases h), (fun x _ h => by cases h), (fun a b x y rest _ _ h => by cases h),
        (fun p h => by cases h), other _ rfl (fun a b rest h => by cases h)⟩)))
    | a :: b :: rest =>
      have hT : (PyValue.tuple (a :: b :: rest)).testNull = .ok false := rfl
      rcases PyValue.bound_cases hv a { pos := some 0, side := 0 } with ⟨x, hx⟩ | ⟨hx, e, he, hx'⟩
      · rcases PyValue.bound_cases hv b { pos := some (tb.timeline.len - 1), side := 0 } with ⟨y, hy⟩ | ⟨hy, e, he, hy'⟩
        · exact .inr (.inr (.inl ⟨a, b, x, y, rest, hx, hy, rfl⟩))
        · refine .inr (.inr (.inr (.inr ⟨(fun h => by cases h), (fun x _ h => by cases h), ?_, (fun p h => by cases h), ?_⟩)))
          · intro a' b' x' y' rest' _ hb h; cases h; exact hy _ hb
          · cases hl : (if a.isNull then Except.ok ({ pos := some 0, side := 0 } : Location) else tb.locateV a) with
            | error e' =>
              rw [hv.boundV_eq hx] at hl
              cases x with
              | none => cases hl
              | some t => rcases hv.locate_none t with ⟨k, _, h2⟩ | ⟨_, h2⟩ | ⟨_, h2⟩ <;> (simp only [h2] at hl; cases hl)
            | ok l =>
              refine ⟨e, he, fun dh dt => ?_⟩
              unfold Timeboard.locsFromReferenceV
              simp only [hT, PyValue.asSeq, hl, hy']
      · refine .inr (.inr (.inr (.inr ⟨(fun h => by cases h), (fun x _ h => by cases h), ?_, (fun p h => by cases h), e, he, fun dh dt => ?_⟩)))
        · intro a' b' x' y' rest' ha _ h; cases h; exact hx _ ha
        · unfold Timeboard.locsFromReferenceV
          simp only [hT, PyValue.asSeq, hx']

/-- Either the arguments can be read, or `get_interval` fails. -/
theorem Timeboard.Valid.intervalLocsV_cases {tb : Timeboard L} (hv : tb.Valid) (ref length period : PyValue L) :
    (∃ r n f, PyValue.Reading tb.endTime ref length period r n f) ∨
    ((∀ r n f, ¬ PyValue.Reading tb.endTime ref length period r n f) ∧
      ∃ e, (Unread e ∨ (e = .voidInterval ∧ length.Whole 0)) ∧ ∀ clip dh dt, tb.intervalLocsV ref length period clip dh dt = .error e) := by
  by_cases hl : length = .pyNone
  · subst hl
    by_cases hp : period = .pyNone
    · subst hp
      rcases hv.locsFromReferenceV_cases ref with h | ⟨x, h, rfl⟩ | ⟨a, b, x, y, rest, ha, hb, rfl⟩ | ⟨p, rfl⟩ | ⟨h1, h2, h3, h4, e, he, h5⟩
      · exact .inl ⟨_, _, _, .whole h⟩
      · exact .inl ⟨_, _, _, .wholeList h⟩
      · exact .inl ⟨_, _, _, .pair rest ha hb⟩
      · exact .inl ⟨_, _, _, .period p⟩
      · refine .inr ⟨?_, e, .inl (he.elim .inl (fun h => .inr (.inl h))), fun clip dh dt => ?_⟩
        · intro r n f h
          cases h with
          | whole h => exact h1 h
          | wholeList h => exact h2 _ h rfl
          | pair rest ha hb => exact h3 _ _ _ _ rest ha hb rfl
          | period p => exact h4 p rfl
          | length _ hl => exact hl.ne_none rfl
          | byFreq _ _ hf => exact hf.ne_none rfl
          | periodAnyFreq p h => exact h rfl
        · simp only [Timeboard.intervalLocsV, h5]
          rcases he with rfl | rfl
          · have : ref.toPeriod .pyNone = .error .typeError := by
              cases ref <;> first | (exact absurd rfl (h4 _)) | rfl
            simp only [this]
          · rfl
    · rcases PyValue.toPeriod_cases ref period with ⟨p, rfl⟩ | ⟨t, f, h1, h2, h3⟩ | ⟨h1, h2, e, h3, h4⟩
      · exact .inl ⟨_, _, _, .periodAnyFreq p hp⟩
      · exact .inl ⟨_, _, _, .byFreq h1 h2 h3⟩
      · refine .inr ⟨?_, e, .inl h4, fun clip dh dt => ?_⟩
        · intro r n f h
          cases h with
          | whole h => exact hp rfl
          | wholeList h => exact hp rfl
          | pair rest ha hb => exact hp rfl
          | period p => exact hp rfl
          | length _ hl => exact hl.ne_none rfl
          | byFreq h _ hf => exact h2 _ _ h hf
          | periodAnyFreq p h => exact h1 p rfl
        · rw [Timeboard.intervalLocsV_period hp, h3]
  · by_cases hp : period = .pyNone
    · subst hp
      rcases length.whole_cases with ⟨n, hn⟩ | ⟨hn, hn'⟩
      · rcases hv.locateV_cases ref with ⟨t, h, _⟩ | h
        · exact .inl ⟨_, _, _, .length h hn⟩
        · have hno : ∀ r n f, ¬ PyValue.Reading tb.endTime ref length .pyNone r n f := by
            intro r n f h'
            cases h' with
            | whole h => exact hl rfl
            | wholeList h => exact hl rfl
            | pair rest ha hb => exact hl rfl
            | period p => exact hl rfl
            | length hr _ => rcases h with h | h <;> exact h.1 _ hr
            | byFreq h _ hf => exact hl rfl
            | periodAnyFreq p h => exact hl rfl
          have he : ∃ e, Unread e ∧ tb.locateV ref = .error e := by
            rcases h with h | h
            · exact ⟨_, .inr (.inl rfl), h.2.2⟩
            · exact ⟨_, .inl rfl, h.2.2⟩
          obtain ⟨e, he, he'⟩ := he
          by_cases h0 : n = 0
          · subst h0
            refine .inr ⟨hno, _, .inr ⟨rfl, hn⟩, fun clip dh dt => ?_⟩
            rw [Timeboard.intervalLocsV_length hl]
            simp only [Timeboard.locsByLengthV, hn.asInt, if_true]
          · refine .inr ⟨hno, e, .inl he, fun clip dh dt => ?_⟩
            rw [Timeboard.intervalLocsV_length hl]
            simp only [Timeboard.locsByLengthV, hn.asInt, if_neg h0, he']
      · refine .inr ⟨?_, _, .inl (.inl rfl), fun clip dh dt => ?_⟩
        · intro r n f h'
          cases h' with
          | whole h => exact hl rfl
          | wholeList h => exact hl rfl
          | pair rest ha hb => exact hl rfl
          | period p => exact hl rfl
          | length _ h => exact hn _ h
          | byFreq h _ hf => exact hl rfl
          | periodAnyFreq p h => exact hl rfl
        · rw [Timeboard.intervalLocsV_length hl]
          simp only [Timeboard.locsByLengthV, hn']
    · refine .inr ⟨?_, _, .inl (.inl rfl), fun clip dh dt => Timeboard.intervalLocsV_both hl hp clip dh dt⟩
      intro r n f h'
      cases h' with
      | whole h => exact hl rfl
      | wholeList h => exact hl rfl
      | pair rest ha hb => exact hl rfl
      | period p => exact hl rfl
      | length _ h => exact hp rfl
      | byFreq h _ hf => exact hl rfl
      | periodAnyFreq p h => exact hl rfl

/-! ### Constructors of intervals -/

theorem PyValue.Position.handle {tb : Timeboard L} {v : PyValue L} {n : Int} (h : v.Position n) : handleBoundV tb v = handleBound tb n := by
  cases h with
  | workshift l r => rfl
  | whole h => cases h <;> rfl

theorem PyValue.position_cases (tb : Timeboard L) (v : PyValue L) :
    (∃ n, v.Position n) ∨ ((∀ n, ¬ v.Position n) ∧ handleBoundV tb v = .error .typeError) := by
  cases v
  case workshift l r => exact .inl ⟨_, .workshift l r⟩
  case int n => exact .inl ⟨_, .whole (.int n)⟩
  case bool b => cases b <;> first | exact .inl ⟨_, .whole .true⟩ | exact .inl ⟨_, .whole .false⟩
  all_goals
    refine .inr ⟨(fun n h => ?_), rfl⟩
    cases h with | whole h => cases h

theorem PyValue.BoundsArg.twoItems {v : PyValue L} {b : Int × Int} (h : v.BoundsArg b) :
    ∃ x y, v.twoItems = .ok (x, y) ∧ x.Position b.1 ∧ y.Position b.2 := by
  cases h with
  | tuple rest hx hy => exact ⟨_, _, rfl, hx, hy⟩
  | list rest hx hy => exact ⟨_, _, rfl, hx, hy⟩

theorem Interval.makeV_eq {tb : Timeboard L} {bounds s : PyValue L} {b : Int × Int} {so : Option (Schedule L)} (hb : bounds.BoundsArg b)
    (hs : s.SchedArg so) (void : Bool) : Interval.makeV tb bounds s void = Interval.make tb b so void := by
  obtain ⟨x, y, h1, h2, h3⟩ := hb.twoItems
  unfold Interval.makeV Interval.make
  simp only [h1, h2.handle, h3.handle, hs.toSchedule]
  cases handleBound tb b.1 with
  | error e => rfl
  | ok a => cases handleBound tb b.2 <;> rfl

theorem PyValue.bounds_cases (tb : Timeboard L) (v : PyValue L) :
    (∃ b, v.BoundsArg b) ∨ ((∀ b, ¬ v.BoundsArg b) ∧ ∀ s void, ∃ e, Interval.makeV tb v s void = .error e ∧
      (e = .typeError ∨ e = .indexError ∨ e = .outOfBounds)) := by
  have seq : ∀ (w : PyValue L) x y, w.twoItems = .ok (x, y) → ((∀ n, ¬ x.Position n) ∨ (∀ n, ¬ y.Position n)) → ∀ s void,
      ∃ e, Interval.makeV tb w s void = .error e ∧ (e = .typeError ∨ e = .indexError ∨ e = .outOfBounds) := by
    intro w x y hw h s void
    unfold Interval.makeV
    simp only [hw]
    have hb : ∀ n, (∃ m, handleBound tb n = .ok m) ∨ handleBound tb n = .error .outOfBounds := by
      intro n; unfold handleBound; split
      · exact .inl ⟨_, rfl⟩
      · exact .inr rfl
    rcases PyValue.position_cases tb x with ⟨n, hn⟩ | ⟨hn, hn'⟩
    · rcases hb n with ⟨m, hm⟩ | hm
      · rcases PyValue.position_cases tb y with ⟨k, hk⟩ | ⟨hk, hk'⟩
        · rcases h with h | h
          · exact absurd hn (h n)
          · exact absurd hk (h k)
        · simp only [hn.handle, hm, hk']
          exact ⟨_, rfl, .inl rfl⟩
      · simp only [hn.handle, hm]
        exact ⟨_, rfl, .inr (.inr rfl)⟩
    · simp only [hn']
      exact ⟨_, rfl, .inl rfl⟩
  have err : ∀ (w : PyValue L) e, w.twoItems = .error e → (e = .typeError ∨ e = .indexError ∨ e = .outOfBounds) → ∀ s void,
      ∃ e, Interval.makeV tb w s void = .error e ∧ (e = .typeError ∨ e = .indexError ∨ e = .outOfBounds) := by
    intro w e hw he s void
    unfold Interval.makeV
    simp only [hw]
    exact ⟨e, rfl, he⟩
  have pair : ∀ x y : PyValue L, (∃ b : Int × Int, x.Position b.1 ∧ y.Position b.2) ∨ (∀ n, ¬ x.Position n) ∨ (∀ n, ¬ y.Position n) := by
    intro x y
    rcases PyValue.position_cases tb x with ⟨n, hn⟩ | ⟨hn, _⟩
    · rcases PyValue.position_cases tb y with ⟨k, hk⟩ | ⟨hk, _⟩
      · exact .inl ⟨(n, k), hn, hk⟩
      · exact .inr (.inr hk)
    · exact .inr (.inl hn)
  cases v with
  | tuple xs =>
    match xs with
    | [] => exact .inr ⟨(fun b h => by cases h), err _ _ rfl (.inr (.inl rfl))⟩
    | [_] => exact .inr ⟨(fun b h => by cases h), err _ _ rfl (.inr (.inl rfl))⟩
    | x :: y :: rest =>
      rcases pair x y with ⟨b, h1, h2⟩ | h
      · exact .inl ⟨_, .tuple rest h1 h2⟩
      · refine .inr ⟨?_, seq _ x y rfl h⟩
        intro b hb
        cases hb with | tuple _ h1 h2 => exact h.elim (fun h => h _ h1) (fun h => h _ h2)
  | list xs =>
    match xs with
    | [] => exact .inr ⟨(fun b h => by cases h), err _ _ rfl (.inr (.inl rfl))⟩
    | [_] => exact .inr ⟨(fun b h => by cases h), err _ _ rfl (.inr (.inl rfl))⟩
    | x :: y :: rest =>
      rcases pair x y with ⟨b, h1, h2⟩ | h
      · exact .inl ⟨_, .list rest h1 h2⟩
      · refine .inr ⟨?_, seq _ x y rfl h⟩
        intro b hb
        cases hb with | list _ h1 h2 => exact h.elim (fun h => h _ h1) (fun h => h _ h2)
  | word s =>
    refine .inr ⟨(fun b h => by cases h), ?_⟩
    cases hc : s.chars.toList with
    | nil => exact err _ .indexError (by simp only [PyValue.twoItems, hc]) (.inr (.inl rfl))
    | cons c cs => cases cs with
      | nil => exact err _ .indexError (by simp only [PyValue.twoItems, hc]) (.inr (.inl rfl))
      | cons d ds =>
        refine seq _ _ _ (by simp only [PyValue.twoItems, hc]; rfl) (.inl (fun n h => ?_))
        cases h with | whole h => cases h
  | pyNone => exact .inr ⟨(fun b h => by cases h), err _ _ rfl (.inl rfl)⟩
  | nat => exact .inr ⟨(fun b h => by cases h), err _ _ rfl (.inl rfl)⟩
  | bool b => exact .inr ⟨(fun b h => by cases h), err _ _ rfl (.inl rfl)⟩
  | int b => exact .inr ⟨(fun b h => by cases h), err _ _ rfl (.inl rfl)⟩
  | float b => exact .inr ⟨(fun b h => by cases h), err _ _ rfl (.inl rfl)⟩
  | time b => exact .inr ⟨(fun b h => by cases h), err _ _ rfl (.inl rfl)⟩
  | period b => exact .inr ⟨(fun b h => by cases h), err _ _ rfl (.inl rfl)⟩
  | workshift a b => exact .inr ⟨(fun b h => by cases h), err _ _ rfl (.inl rfl)⟩
  | schedule b => exact .inr ⟨(fun b h => by cases h), err _ _ rfl (.inl rfl)⟩
  | object => exact .inr ⟨(fun b h => by cases h), err _ _ rfl (.inl rfl)⟩

/-- A schedule of the wrong type: the error which there would be anyway, or TypeError. -/
theorem Interval.makeV_wrong {tb : Timeboard L} {s : PyValue L} (h : s.toSchedule tb = .error .typeError) (bounds : PyValue L) (void : Bool) :
    Interval.makeV tb bounds s void = (match Interval.makeV tb bounds .pyNone void with
      | .error e => .error e
      | .ok _ => .error .typeError) := by
  unfold Interval.makeV
  cases bounds.twoItems with
  | error e => rfl
  | ok p =>
    obtain ⟨x, y⟩ := p
    simp only
    cases handleBoundV tb x with
    | error e => rfl
    | ok a =>
      simp only
      cases handleBoundV tb y with
      | error e => rfl
      | ok b =>
        simp only [h, PyValue.SchedArg.toSchedule .pyNone]
        cases void
        · simp only [Bool.false_eq_true, if_false]
          by_cases hab : a > b
          · simp only [if_pos hab]
          · simp only [if_neg hab]
        · simp only [if_true]
          by_cases hab : a ≤ b
          · simp only [if_pos hab]
          · simp only [if_neg hab]

theorem Timeboard.finishIntervalV_eq {tb : Timeboard L} {s : PyValue L} {so : Option (Schedule L)} (hs : s.SchedArg so) (locs : Location × Location) :
    tb.finishIntervalV locs s = tb.finishInterval locs so := by
  unfold Timeboard.finishIntervalV Timeboard.finishInterval Interval.new
  simp only [Interval.makeV_eq (.tuple [] (.whole (.int _)) (.whole (.int _))) hs]
  rfl

theorem Timeboard.finishIntervalV_wrong {tb : Timeboard L} {s : PyValue L} (h : s.toSchedule tb = .error .typeError) (locs : Location × Location) :
    tb.finishIntervalV locs s = (match tb.finishIntervalV locs .pyNone with
      | .error e => .error e
      | .ok _ => .error .typeError) := by
  unfold Timeboard.finishIntervalV
  cases locationsInOrder locs with
  | false => rfl
  | true =>
    obtain ⟨⟨p, a⟩, ⟨q, b⟩⟩ := locs
    cases p with
    | none => cases q with
      | none =>
        simp only [Bool.not_true, Bool.false_eq_true, if_false]
        by_cases hab : a = b
        · simp only [if_pos hab]
        · simp only [if_neg hab]
      | some q => rfl
    | some p => cases q with
      | none => rfl
      | some q =>
        simp only [Bool.not_true, Bool.false_eq_true, if_false]
        rw [Interval.makeV_wrong h]

/-! ### Amendments -/

theorem Timeline.WF.wsPositionV_eq {tl : Timeline L} (wf : tl.WF) {v : PyValue L} {t : Time} (h : v.DenotesOrEnd tl.frame.endTime t) :
    tl.wsPositionV v = tl.wsPosition t := by
  unfold Timeline.wsPositionV
  rcases h with h | ⟨h, rfl⟩
  · rw [h.timestamp]
  · rw [h.timestamp]
    exact wf.wsPositionNull_eq

theorem Timeline.wsPositionV_cases (tl : Timeline L) (v : PyValue L) :
    (∃ t, v.DenotesOrEnd tl.frame.endTime t) ∨ ∃ e, (e = .typeError ∨ e = .valueError) ∧ tl.wsPositionV v = .error e := by
  rcases v.timestamp_cases with ⟨t, h⟩ | h | ⟨h1, h2, h3, h4⟩ | ⟨h1, h2, h3, h4⟩
  · exact .inl ⟨t, .inl h⟩
  · exact .inl ⟨_, .inr ⟨h, rfl⟩⟩
  · exact .inr ⟨_, .inr rfl, by unfold Timeline.wsPositionV; rw [h4]⟩
  · exact .inr ⟨_, .inl rfl, by unfold Timeline.wsPositionV; rw [h4]⟩

theorem Timeline.WF.amendLocateV_eq {tl : Timeline L} (wf : tl.WF) (raising : Bool) {items : List (PyValue L × L)} {ts : List (Time × L)}
    (h : KeysRead tl.frame.endTime items ts) : ∀ acc, tl.amendLocateV raising items acc = tl.amendLocate raising ts acc := by
  induction h with
  | nil => exact fun acc => rfl
  | cons h hs ih =>
    intro acc
    unfold Timeline.amendLocateV Timeline.amendLocate
    rw [wf.wsPositionV_eq h]
    cases tl.wsPosition _ with
    | error e => cases e <;> simp only [ih]
    | ok l => simp only [ih]

theorem Timeline.amendLocateV_ok {tl : Timeline L} (raising : Bool) (items : List (PyValue L × L)) : ∀ acc r,
    tl.amendLocateV raising items acc = .ok r → ∃ ts, KeysRead tl.frame.endTime items ts := by
  induction items with
  | nil => exact fun acc r _ => ⟨[], .nil⟩
  | cons p items ih =>
    intro acc r h
    obtain ⟨v, l⟩ := p
    rcases tl.wsPositionV_cases v with ⟨t, ht⟩ | ⟨e, he, h'⟩
    · have : ∃ acc' r, tl.amendLocateV raising items acc' = .ok r := by
        unfold Timeline.amendLocateV at h
        cases hp : tl.wsPositionV v with
        | error e =>
          rw [hp] at h
          cases e <;> first | (cases h; done) | skip
          cases raising
          · exact ⟨_, _, h⟩
          · cases h
        | ok n =>
          rw [hp] at h
          simp only at h
          split at h
          · cases h
          · exact ⟨_, _, h⟩
      obtain ⟨acc', r', h'⟩ := this
      obtain ⟨ts, hts⟩ := ih acc' r' h'
      exact ⟨_, .cons ht hts⟩
    · unfold Timeline.amendLocateV at h
      rw [h'] at h
      rcases he with rfl | rfl <;> cases h

end TB
