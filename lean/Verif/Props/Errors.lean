import Verif.Props.GetInterval
/-! Which exceptions the lookups raise. -/
namespace TB
open TB.Ex
variable {L : Type}

/-- Combinations of arguments of `get_interval` which have no meaning: both `length` and `period`; a non-zero length without
a point in time to count from; the frequency of a period without a point in time; a single point in time or a too short
sequence alone. -/
def BadCombination (ref : Option IvlRef) (length : Option Int) (period : Option Freq) : Prop :=
  (length ≠ none ∧ period ≠ none) ∨
  (period = none ∧ (∃ n, length = some n ∧ n ≠ 0) ∧ (ref = none ∨ ref = some .short ∨ ∃ a b, ref = some (.pair a b))) ∨
  (length = none ∧ period ≠ none ∧ (ref = none ∨ ref = some .short ∨ ∃ a b, ref = some (.pair a b))) ∨
  (length = none ∧ period = none ∧ (ref = some .short ∨ ∃ t, ref = some (.point t)))

theorem Timeboard.Valid.locate_total {tb : Timeboard L} (hv : tb.Valid) (t : Time) (r : ByRef) : ∃ x, tb.locate t r = .ok x := by
  cases r with
  | none =>
    rcases hv.locate_none t with ⟨k, _, h⟩ | ⟨_, h⟩ | ⟨_, h⟩ <;> exact ⟨_, h⟩
  | after =>
    rcases hv.locate_after t with ⟨_, h⟩ | ⟨_, h⟩ | ⟨_, _, h⟩ | ⟨_, k, _, _, _, _, h⟩ <;> exact ⟨_, h⟩
  | before =>
    rcases hv.locate_before t with ⟨_, h⟩ | ⟨_, h⟩ | ⟨_, _, h⟩ | ⟨_, k, _, _, _, _, h⟩ <;> exact ⟨_, h⟩

theorem Timeboard.Valid.locsByPeriod_total {tb : Timeboard L} (hv : tb.Valid) (p : Period) (c h t : Bool) :
    ∃ x, tb.locsByPeriod p c h t = .ok x := by
  obtain ⟨x, hx⟩ := hv.locate_total p.startTime .after
  obtain ⟨y, hy⟩ := hv.locate_total p.endTime .before
  unfold Timeboard.locsByPeriod
  rw [hx, hy]
  exact ⟨_, rfl⟩

theorem Timeboard.Valid.intervalLocs_bad {tb : Timeboard L} (hv : tb.Valid) (ref : Option IvlRef) (length : Option Int) (period : Option Freq)
    (c h t : Bool) :
    (BadCombination ref length period ∧ tb.intervalLocs ref length period c h t = .error .typeError) ∨
    (¬ BadCombination ref length period ∧ ((∃ x, tb.intervalLocs ref length period c h t = .ok x) ∨
      tb.intervalLocs ref length period c h t = .error .voidInterval)) := by
  unfold BadCombination Timeboard.intervalLocs
  cases length with
  | some n =>
    cases period with
    | some f => left; exact ⟨.inl ⟨by simp, by simp⟩, rfl⟩
    | none =>
      simp only [Timeboard.locsByLength]
      by_cases hn : n = 0
      · right; simp [hn]
      · rw [if_neg hn]
        match ref with
        | none => left; simp [hn]
        | some .short => left; simp [hn, IvlRef.toTime?]
        | some (.pair a b) => left; simp [hn, IvlRef.toTime?]
        | some (.point u) =>
          right
          refine ⟨by simp, .inl ?_⟩
          obtain ⟨x, hx⟩ := hv.locate_total u .none
          simp only [Option.bind_some, IvlRef.toTime?, hx]
          split <;> exact ⟨_, rfl⟩
        | some (.period q) =>
          right
          refine ⟨by simp, .inl ?_⟩
          obtain ⟨x, hx⟩ := hv.locate_total q.startTime .none
          simp only [Option.bind_some, IvlRef.toTime?, hx]
          split <;> exact ⟨_, rfl⟩
  | none =>
    cases period with
    | some f =>
      simp only
      match ref with
      | none => left; simp
      | some .short => left; simp [getPeriod]
      | some (.pair a b) => left; simp [getPeriod]
      | some (.point u) => right; exact ⟨by simp, .inl (hv.locsByPeriod_total _ _ _ _)⟩
      | some (.period q) => right; exact ⟨by simp, .inl (hv.locsByPeriod_total _ _ _ _)⟩
    | none =>
      simp only
      match ref with
      | none => right; exact ⟨by simp, .inl ⟨_, rfl⟩⟩
      | some .short => left; simp [Timeboard.locsFromReference, getPeriod, throw, throwThe, MonadExceptOf.throw]
      | some (.pair a b) =>
        right
        refine ⟨by simp, .inl ?_⟩
        have : ∃ x, tb.locsFromReference (some (.pair a b)) h t = .ok x := by
          unfold Timeboard.locsFromReference
          cases a with
          | none =>
            cases b with
            | none => exact ⟨_, rfl⟩
            | some v =>
              obtain ⟨y, hy⟩ := hv.locate_total v .none
              simp only [hy, Bind.bind, Except.bind, pure, Except.pure]
              exact ⟨_, rfl⟩
          | some u =>
            obtain ⟨x, hx⟩ := hv.locate_total u .none
            cases b with
            | none =>
              simp only [hx, Bind.bind, Except.bind, pure, Except.pure]
              exact ⟨_, rfl⟩
            | some v =>
              obtain ⟨y, hy⟩ := hv.locate_total v .none
              simp only [hx, hy, Bind.bind, Except.bind, pure, Except.pure]
              exact ⟨_, rfl⟩
        obtain ⟨x, hx⟩ := this
        rw [hx]
        exact ⟨x, rfl⟩
      | some (.point u) => left; simp [Timeboard.locsFromReference, getPeriod, throw, throwThe, MonadExceptOf.throw]
      | some (.period q) =>
        right
        refine ⟨by simp, .inl ?_⟩
        simp only [Timeboard.locsFromReference, getPeriod, throw, throwThe, MonadExceptOf.throw, Option.bind]
        exact hv.locsByPeriod_total _ _ _ _

theorem Timeboard.finishInterval_error {tb : Timeboard L} {locs : Location × Location} {s : Option (Schedule L)} {e : Err}
    (h : tb.finishInterval locs s = .error e) : e = .outOfBounds ∨ e = .partialOutOfBounds ∨ e = .voidInterval := by
  unfold Timeboard.finishInterval at h
  split at h
  · cases h; simp
  · split at h
    · split at h <;> (cases h; simp)
    · cases h; simp
    · cases h; simp
    · unfold Interval.new Interval.make handleBound at h
      simp only at h
      split at h
      · rename_i hh; split at hh <;> cases hh; cases h; simp
      · rename_i hh; split at hh <;> cases hh; cases h; simp
      · split at h
        · split at h
          · cases h; simp
          · cases h
        · split at h
          · cases h; simp
          · cases h

/-- **C77.** `get_interval` raises nothing but: ValueError exactly for an unacceptable `closed`; otherwise TypeError exactly
for a meaningless combination of arguments; otherwise, if at all, OutOfBoundsError, PartialOutOfBoundsError or
VoidIntervalError.  `get_workshift` raises OutOfBoundsError, exactly for a point in time outside the timeboard. -/
theorem C77_lookup_errors {tb : Timeboard L} (h : tb.Reachable) (ref : Option IvlRef) (length : Option Int) (period : Option Freq) (clip : Bool)
    (closed : String) (sch : Option (Schedule L)) :
    (let r := tb.getInterval ref length period clip closed sch
     (r = .error .valueError ↔ ¬ closedOk closed) ∧
     (r = .error .typeError ↔ (closedOk closed ∧ BadCombination ref length period)) ∧
     (∀ e, r = .error e → e = .valueError ∨ e = .typeError ∨ e = .outOfBounds ∨ e = .partialOutOfBounds ∨ e = .voidInterval)) ∧
    (∀ t, (tb.Within t ∧ ∃ w, tb.getWorkshift t sch = .ok w) ∨ (¬ tb.Within t ∧ tb.getWorkshift t sch = .error .outOfBounds)) := by
  have hv := h.valid
  refine ⟨?_, ?_⟩
  · by_cases hc : closedOk closed
    · have hm : ¬ closed ∉ ["00", "01", "10", "11"] := by
        intro hn; apply hn; unfold closedOk at hc; simpa using hc
      unfold Timeboard.getInterval
      rw [if_neg hm]
      simp only [hc, not_true_eq_false, iff_false, true_and]
      generalize decide (closed = "00" ∨ closed = "01") = dh
      generalize decide (closed = "00" ∨ closed = "10") = dt
      rcases hv.intervalLocs_bad ref length period clip dh dt with ⟨hb, e⟩ | ⟨hb, ⟨x, e⟩ | e⟩
      · rw [e]; simp [hb]
      · rw [e]
        simp only [hb, iff_false]
        refine ⟨?_, ?_, ?_⟩
        · intro hh; have := Timeboard.finishInterval_error hh; simp at this
        · intro hh; have := Timeboard.finishInterval_error hh; simp at this
        · intro e' hh; exact .inr (.inr (Timeboard.finishInterval_error hh))
      · rw [e]; simp [hb]
    · rw [C32_closed_values tb ref length period clip closed sch hc]
      simp [hc]
  · intro t
    by_cases ht : tb.Within t
    · left
      refine ⟨ht, ?_⟩
      obtain ⟨k, hk⟩ := hv.at_exists ht
      rw [hv.getWorkshift_of_within (hv.at_iff.1 hk)]
      obtain ⟨w, hw, _⟩ := Workshift.exists_of_range hv sch hk.1 hk.2.1
      exact ⟨w, hw⟩
    · right
      refine ⟨ht, ?_⟩
      unfold Timeboard.getWorkshift
      rcases hv.locate_none t with ⟨k, hk, _⟩ | ⟨_, e⟩ | ⟨_, e⟩
      · exfalso
        apply ht
        have := hv.wf.position_in_frame hk
        unfold Timeboard.Within Timeboard.startTime Timeboard.endTime
        omega
      · rw [e]
      · rw [e]

example : (showIvl (week.getInterval (some (.point (date 2017 1 3))))) = .error .typeError ∧
    (showIvl (week.getInterval (some (.point (date 2017 1 3))) (some 2) (some fW))) = .error .typeError ∧
    (showIvl (week.getInterval none (some 2))) = .error .typeError ∧
    (showIvl (week.getInterval (some (.point (date 2017 1 3))) (some 2) none true "1")) = .error .valueError ∧
    (showIvl (week.getInterval (some (.point (date 2017 1 3))) (some (-9)))) = .error .partialOutOfBounds ∧
    (showIvl (week.getInterval (some (.point (date 2017 1 3))) (some 0))) = .error .voidInterval ∧
    (showIvl (week.getInterval (some (.point (date 2016 1 3))) (some 5))) = .error .outOfBounds := by decide +kernel

end TB
