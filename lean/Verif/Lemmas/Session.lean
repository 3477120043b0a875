import Verif.Spec.Session
import Verif.Lemmas.Intervals
import Verif.Props.ScheduleSteps
/-!
# Lemmas about sessions
-/
namespace TB

variable {L : Type}

theorem Session.run_cons (s : Session L) (a : Act L) (as : List (Act L)) :
    s.run (a :: as) = (((s.step a).1.run as).1, (s.step a).2 :: ((s.step a).1.run as).2) := rfl

theorem Session.answers_nil (s : Session L) (p : Act L → Bool) : s.answers p [] = [] := rfl

theorem Session.answers_cons (s : Session L) (p : Act L → Bool) (a : Act L) (as : List (Act L)) :
    s.answers p (a :: as) = if p a then (s.step a).2 :: (s.step a).1.answers p as else (s.step a).1.answers p as := by
  unfold Session.answers
  rw [Session.run_cons]
  simp only [List.zip_cons_cons, List.filter_cons]
  cases p a <;> simp

/-- `s'` may come after `s`. -/
def Session.Before (s s' : Session L) : Prop :=
  (∃ ws, s'.workshifts = s.workshifts ++ ws) ∧ ∃ x, s'.tb = { s.tb with schedules := x }

theorem Session.Before.refl (s : Session L) : s.Before s := ⟨⟨[], by simp⟩, ⟨s.tb.schedules, rfl⟩⟩

theorem Session.Before.trans {s s' s'' : Session L} (h : s.Before s') (h' : s'.Before s'') : s.Before s'' := by
  obtain ⟨⟨a, ha⟩, x, hx⟩ := h
  obtain ⟨⟨b, hb⟩, y, hy⟩ := h'
  refine ⟨⟨a ++ b, by rw [hb, ha, List.append_assoc]⟩, y, by rw [hy, hx]⟩

theorem Session.before_deliver (s : Session L) (o : Except Err (Option (Workshift L))) : s.Before (s.deliver o).1 := by
  rcases o with e | _ | w
  · exact .refl s
  · exact .refl s
  · exact ⟨⟨[w], rfl⟩, ⟨s.tb.schedules, rfl⟩⟩

theorem Gen.search_made (tb : Timeboard L) (sch : Schedule L) (w : Nat) (is : List Int) :
    ∀ made : List (Workshift L), ∃ ws, (Gen.search tb sch w made is).2.1 = made ++ ws := by
  induction is with
  | nil => intro made; exact ⟨[], by simp [Gen.search]⟩
  | cons i rest ih =>
    intro made
    unfold Gen.search
    split
    · exact ⟨[], by simp⟩
    · rename_i x _
      split
      · exact ⟨[x], rfl⟩
      · obtain ⟨ws, h⟩ := ih (made ++ [x])
        exact ⟨x :: ws, by rw [h]; simp⟩

theorem Gen.contains_made (tb : Timeboard L) (w : Nat) (made : List (Workshift L)) (v : Interval L) :
    ∃ ws, (Gen.contains tb w made v).2.1 = made ++ ws := by
  unfold Gen.contains
  split
  · exact ⟨[], by simp⟩
  · split
    · exact ⟨[], by simp⟩
    · exact ⟨[], by simp⟩
    · exact Gen.search_made _ _ _ _ _

theorem Session.before_step (s : Session L) (a : Act L) : s.Before (s.step a).1 := by
  cases a with
  | interval v => exact .refl s
  | workshift w => exact ⟨⟨[w], rfl⟩, ⟨s.tb.schedules, rfl⟩⟩
  | generate i d sch =>
    unfold Session.step; simp only
    split <;> exact .refl s
  | advance g =>
    unfold Session.step; simp only
    split
    · exact .refl s
    · exact Session.Before.trans (s' := { s with generators := _ }) (.refl s) (Session.before_deliver _ _)
  | iter i =>
    unfold Session.step; simp only
    split <;> exact .refl s
  | next i =>
    unfold Session.step; simp only
    split
    · exact .refl s
    · exact .refl s
    · exact Session.Before.trans (s' := { s with intervals := _ }) (.refl s) (Session.before_deliver _ _)
  | contains i w =>
    unfold Session.step; simp only
    split
    · exact .refl s
    · split
      · exact ⟨Gen.contains_made _ _ _ _, ⟨s.tb.schedules, rfl⟩⟩
      · exact .refl s
  | equal w x =>
    unfold Session.step; simp only
    split <;> exact .refl s
  | addSchedule name sel =>
    unfold Session.step; simp only
    split
    · exact .refl s
    · rename_i sch tb' h
      unfold Timeboard.addSchedule at h
      split at h
      · cases h
      · injection h with h; injection h with h1 h2; subst h2
        exact ⟨⟨[], by simp⟩, ⟨_, rfl⟩⟩
  | dropSchedule sch =>
    unfold Session.step; simp only
    split
    · exact .refl s
    · rename_i tb' h
      unfold Timeboard.dropSchedule at h
      split at h
      · injection h with h; subst h
        exact ⟨⟨[], by simp⟩, ⟨_, rfl⟩⟩
      · cases h

theorem Session.before_run (acts : List (Act L)) : ∀ s : Session L, s.Before (s.run acts).1 := by
  induction acts with
  | nil => intro s; exact .refl s
  | cons a as ih => intro s; rw [Session.run_cons]; exact (s.before_step a).trans (ih _)

theorem Session.Before.sees {s s' : Session L} (h : s.Before s') {r : Res} {o : Except Err (Option (Workshift L))}
    (hr : s.sees r = some o) : s'.sees r = some o := by
  obtain ⟨⟨ws, hw⟩, _⟩ := h
  cases r with
  | object n =>
    unfold Session.sees at hr ⊢
    simp only at hr ⊢
    rw [hw]
    cases hn : s.workshifts[n]? with
    | none => rw [hn] at hr; cases hr
    | some w =>
      rw [hn] at hr
      have hlt : n < s.workshifts.length := by
        by_cases h : n < s.workshifts.length
        · exact h
        · rw [List.getElem?_eq_none (by omega)] at hn; cases hn
      rw [List.getElem?_append_left hlt, hn]; exact hr
  | truth b => cases hr
  | done => cases hr
  | nothing => cases hr
  | stop => exact hr
  | error e => exact hr

theorem Session.deliver_sees (s : Session L) (o : Except Err (Option (Workshift L))) :
    (s.deliver o).1.sees (s.deliver o).2 = some o := by
  rcases o with e | _ | w
  · rfl
  · rfl
  · simp [Session.deliver, Session.sees]

theorem Session.deliver_generators (s : Session L) (o : Except Err (Option (Workshift L))) :
    (s.deliver o).1.generators = s.generators := by
  rcases o with e | _ | w <;> rfl

theorem Session.deliver_intervals (s : Session L) (o : Except Err (Option (Workshift L))) :
    (s.deliver o).1.intervals = s.intervals := by
  rcases o with e | _ | w <;> rfl

/-- What the `k`-th advance of a generator gives. -/
def Gen.outcome (tb : Timeboard L) : Gen L → Nat → Except Err (Option (Workshift L))
  | g, 0 => (g.next tb).1
  | g, k + 1 => Gen.outcome tb (g.next tb).2 k

theorem Gen.next_schedules (tb : Timeboard L) (x : List (String × Schedule L)) (g : Gen L) :
    g.next { tb with schedules := x } = g.next tb := by
  have hl : ∀ (s : Schedule L) is, Gen.loop { tb with schedules := x } s is = Gen.loop tb s is := by
    intro s is
    cases is <;> rfl
  cases g with
  | fresh v d sch =>
    unfold Gen.next
    simp only [hl]
    rfl
  | running s rest => exact hl _ _
  | finished => rfl

theorem Gen.outcome_finished (tb : Timeboard L) (k : Nat) : Gen.outcome tb .finished k = .ok none := by
  induction k with
  | zero => rfl
  | succ k ih => exact ih

/-- A generator which is finished by its first advance. -/
theorem Gen.outcome_once {tb : Timeboard L} {g : Gen L} {o : Except Err (Option (Workshift L))} (h : g.next tb = (o, .finished)) (k : Nat) :
    Gen.outcome tb g k = if k = 0 then o else .ok none := by
  cases k with
  | zero => unfold Gen.outcome; rw [h]; rfl
  | succ k => unfold Gen.outcome; rw [h]; simp [Gen.outcome_finished]

theorem Gen.outcome_loop (tb : Timeboard L) (s : Schedule L) (is : List Int) :
    ∀ ws, is.mapM (fun i => Workshift.new tb i (some s)) = .ok ws → ∀ g, g.next tb = Gen.loop tb s is →
      ∀ k, Gen.outcome tb g k = .ok ws[k]? := by
  induction is with
  | nil =>
    intro ws h g hg k
    simp only [List.mapM_nil] at h
    cases h
    cases k with
    | zero => unfold Gen.outcome; rw [hg]; rfl
    | succ k => unfold Gen.outcome; rw [hg]; exact Gen.outcome_finished tb k
  | cons i rest ih =>
    intro ws h g hg k
    rw [List.mapM_cons] at h
    cases hn : Workshift.new tb i (some s) with
    | error e => rw [hn] at h; cases h
    | ok w =>
      rw [hn] at h
      simp only [Bind.bind, Except.bind] at h
      cases hr : rest.mapM (fun i => Workshift.new tb i (some s)) with
      | error e => rw [hr] at h; cases h
      | ok ws' =>
        rw [hr] at h
        cases h
        have hl : Gen.loop tb s (i :: rest) = (.ok (some w), .running s rest) := by
          simp only [Gen.loop, hn]
        cases k with
        | zero => unfold Gen.outcome; rw [hg, hl]; rfl
        | succ k =>
          unfold Gen.outcome; rw [hg, hl]
          exact ih ws' hr (.running s rest) rfl k

theorem Gen.outcome_fresh {tb : Timeboard L} (h : tb.Reachable) {v : Interval L} (hv : tb.HasInterval v) {sch : Option (Schedule L)}
    (ho : tb.OwnsOpt sch) (duty : Duty) (k : Nat) : Gen.outcome tb (.fresh v duty sch) k = v.turn tb duty sch k := by
  have hvd := h.valid
  have fv := hv.fine hvd
  unfold Interval.turn
  cases hws : v.workshifts tb duty sch with
  | ok ws =>
    simp only
    unfold Interval.workshifts at hws
    split at hws
    · rename_i hvoid
      cases hws
      rw [Gen.outcome_once (o := .ok none) (by simp only [Gen.next, if_pos hvoid])]
      simp
    · rename_i hvoid
      simp only at hws
      cases hd : v.dutyIdx tb duty (sch.getD v.schedule) with
      | error e => rw [hd] at hws; cases hws
      | ok r =>
        rw [hd] at hws
        obtain ⟨idx, _ | ⟨a, b⟩⟩ := r
        · cases hws
          rw [Gen.outcome_once (o := .ok none) (by simp only [Gen.next, if_neg hvoid, hd])]
          simp
        · refine Gen.outcome_loop tb _ _ ws hws _ ?_ k
          simp only [Gen.next, if_neg hvoid, hd]
  | error e =>
    simp only
    by_cases hd : duty = .on ∨ duty = .off ∨ duty = .any
    · obtain ⟨ws, h1, _⟩ := fv.workshifts_spec hvd ho hd
      rw [h1] at hws; cases hws
    · have hn : (Gen.fresh v duty sch).next tb = (.error e, .finished) := by
        unfold Interval.workshifts at hws
        split at hws
        · cases hws
        · rename_i hvoid
          simp only [Gen.next, if_neg hvoid] at hws ⊢
          have : v.dutyIdx tb duty (sch.getD v.schedule) = .error .valueError := by
            unfold Interval.dutyIdx
            cases duty <;> simp_all
          rw [this] at hws ⊢
          cases hws; rfl
      exact Gen.outcome_once hn k

theorem map_range_succ {β : Type} (f : Nat → β) (n : Nat) :
    (List.range (n + 1)).map f = f 0 :: (List.range n).map (fun k => f (k + 1)) := by
  rw [List.range_succ_eq_map, List.map_cons, List.map_map]
  rfl

/-- An operation other than advancing generator `g` leaves it alone. -/
theorem Session.step_generator {s : Session L} {g : Nat} {gen : Gen L} (hg : s.generators[g]? = some gen) (a : Act L) :
    (a.isAdvance g = true → (s.step a).1.generators[g]? = some (gen.next s.tb).2 ∧
      (s.step a).1.sees (s.step a).2 = some (gen.next s.tb).1) ∧
    (a.isAdvance g = false → (s.step a).1.generators[g]? = some gen) := by
  have hlt : g < s.generators.length := by
    by_cases h : g < s.generators.length
    · exact h
    · rw [List.getElem?_eq_none (by omega)] at hg; cases hg
  cases a with
  | advance g' =>
    unfold Act.isAdvance
    refine ⟨fun h => ?_, fun h => ?_⟩
    · have : g' = g := by simpa using h
      subst this
      unfold Session.step
      simp only [hg]
      rw [Session.deliver_generators]
      exact ⟨by rw [List.getElem?_set_self hlt], Session.deliver_sees _ _⟩
    · have : g' ≠ g := by simpa using h
      unfold Session.step
      simp only
      split
      · exact hg
      · rw [Session.deliver_generators]
        show (s.generators.set g' _)[g]? = _
        rw [List.getElem?_set_ne this]; exact hg
  | interval v => exact ⟨fun h => (by cases h), fun _ => hg⟩
  | workshift w => exact ⟨fun h => (by cases h), fun _ => hg⟩
  | generate i d sch =>
    refine ⟨fun h => (by cases h), fun _ => ?_⟩
    unfold Session.step; simp only
    split
    · exact hg
    · show (s.generators ++ _)[g]? = _
      rw [List.getElem?_append_left hlt]; exact hg
  | iter i =>
    refine ⟨fun h => (by cases h), fun _ => ?_⟩
    unfold Session.step; simp only
    split <;> exact hg
  | next i =>
    refine ⟨fun h => (by cases h), fun _ => ?_⟩
    unfold Session.step; simp only
    split
    · exact hg
    · exact hg
    · rw [Session.deliver_generators]; exact hg
  | contains i w =>
    refine ⟨fun h => (by cases h), fun _ => ?_⟩
    unfold Session.step; simp only
    split
    · exact hg
    · split <;> exact hg
  | equal w x =>
    refine ⟨fun h => (by cases h), fun _ => ?_⟩
    unfold Session.step; simp only
    split <;> exact hg
  | addSchedule name sel =>
    refine ⟨fun h => (by cases h), fun _ => ?_⟩
    unfold Session.step; simp only
    split <;> exact hg
  | dropSchedule sch =>
    refine ⟨fun h => (by cases h), fun _ => ?_⟩
    unfold Session.step; simp only
    split <;> exact hg

/-- The answers of a generator are its outcomes in turn. -/
theorem Session.answers_generator (tb : Timeboard L) (g : Nat) (acts : List (Act L)) :
    ∀ (s : Session L) (gen : Gen L), (∃ x, s.tb = { tb with schedules := x }) → s.generators[g]? = some gen →
      (s.answers (Act.isAdvance g) acts).map (s.run acts).1.sees =
        (List.range (s.answers (Act.isAdvance g) acts).length).map (fun k => some (gen.outcome tb k)) := by
  induction acts with
  | nil => intro s gen _ _; rfl
  | cons a as ih =>
    intro s gen htb hg
    obtain ⟨x, hx⟩ := htb
    have hn : gen.next s.tb = gen.next tb := by rw [hx]; exact Gen.next_schedules tb x gen
    have htb' : ∃ x, (s.step a).1.tb = { tb with schedules := x } := by
      obtain ⟨_, y, hy⟩ := s.before_step a
      exact ⟨y, by rw [hy, hx]⟩
    rw [Session.answers_cons, Session.run_cons]
    cases ha : a.isAdvance g with
    | false =>
      simp only [Bool.false_eq_true, if_false]
      exact ih _ gen htb' ((s.step_generator hg a).2 ha)
    | true =>
      simp only [if_true]
      obtain ⟨h1, h2⟩ := (s.step_generator hg a).1 ha
      rw [hn] at h1 h2
      rw [List.map_cons, List.length_cons, map_range_succ]
      have h3 := ih _ _ htb' h1
      rw [h3]
      refine congr (congrArg List.cons ?_) rfl
      exact (Session.before_run as _).sees h2

/-- An operation other than `next(v)`, `iter(v)` and `… in v` leaves the iteration over the object `v` alone. -/
theorem Session.step_interval {s : Session L} {i : Nat} {v : Interval L} {o : Option (Gen L)} (hi : s.intervals[i]? = some (v, o))
    {a : Act L} (hr : a.restarts i = false) :
    (a.isNext i = true → (∀ gen, o = some gen → (s.step a).1.intervals[i]? = some (v, some (gen.next s.tb).2) ∧
      (s.step a).1.sees (s.step a).2 = some (gen.next s.tb).1) ∧
      (o = none → (s.step a).1 = s ∧ (s.step a).2 = .error .attributeError)) ∧
    (a.isNext i = false → (s.step a).1.intervals[i]? = some (v, o)) := by
  have hlt : i < s.intervals.length := by
    by_cases h : i < s.intervals.length
    · exact h
    · rw [List.getElem?_eq_none (by omega)] at hi; cases hi
  cases a with
  | next i' =>
    unfold Act.isNext
    refine ⟨fun h => ?_, fun h => ?_⟩
    · have : i' = i := by simpa using h
      subst this
      refine ⟨?_, ?_⟩
      · intro gen hgen
        subst hgen
        unfold Session.step
        simp only [hi]
        rw [Session.deliver_intervals]
        exact ⟨by rw [List.getElem?_set_self hlt], Session.deliver_sees _ _⟩
      · intro hn
        subst hn
        unfold Session.step
        simp only [hi]
        exact ⟨trivial, trivial⟩
    · have : i' ≠ i := by simpa using h
      unfold Session.step
      simp only
      split
      · exact hi
      · exact hi
      · rw [Session.deliver_intervals]
        show (s.intervals.set i' _)[i]? = _
        rw [List.getElem?_set_ne this]; exact hi
  | interval v => 
    refine ⟨fun h => (by cases h), fun _ => ?_⟩
    unfold Session.step
    show (s.intervals ++ _)[i]? = _
    rw [List.getElem?_append_left hlt]; exact hi
  | workshift w => exact ⟨fun h => (by cases h), fun _ => hi⟩
  | generate i d sch =>
    refine ⟨fun h => (by cases h), fun _ => ?_⟩
    unfold Session.step; simp only
    split <;> exact hi
  | iter i' =>
    refine ⟨fun h => (by cases h), fun _ => ?_⟩
    have : i' ≠ i := by simpa [Act.restarts] using hr
    unfold Session.step; simp only
    split
    · exact hi
    · show (s.intervals.set i' _)[i]? = _
      rw [List.getElem?_set_ne this]; exact hi
  | advance g =>
    refine ⟨fun h => (by cases h), fun _ => ?_⟩
    unfold Session.step; simp only
    split
    · exact hi
    · rw [Session.deliver_intervals]; exact hi
  | contains i' w =>
    refine ⟨fun h => (by cases h), fun _ => ?_⟩
    have : i' ≠ i := by simpa [Act.restarts] using hr
    unfold Session.step; simp only
    split
    · exact hi
    · split
      · show (s.intervals.set i' _)[i]? = _
        rw [List.getElem?_set_ne this]; exact hi
      · exact hi
  | equal w x =>
    refine ⟨fun h => (by cases h), fun _ => ?_⟩
    unfold Session.step; simp only
    split <;> exact hi
  | addSchedule name sel =>
    refine ⟨fun h => (by cases h), fun _ => ?_⟩
    unfold Session.step; simp only
    split <;> exact hi
  | dropSchedule sch =>
    refine ⟨fun h => (by cases h), fun _ => ?_⟩
    unfold Session.step; simp only
    split <;> exact hi

/-- The answers to `next(v)`, as long as the iteration is not started anew. -/
theorem Session.answers_interval (tb : Timeboard L) (i : Nat) (acts : List (Act L)) (v : Interval L) :
    ∀ (s : Session L) (gen : Gen L), (∃ x, s.tb = { tb with schedules := x }) → s.intervals[i]? = some (v, some gen) →
      (∀ a ∈ acts, a.restarts i = false) →
      (s.answers (Act.isNext i) acts).map (s.run acts).1.sees =
        (List.range (s.answers (Act.isNext i) acts).length).map (fun k => some (gen.outcome tb k)) := by
  induction acts with
  | nil => intro s gen _ _ _; rfl
  | cons a as ih =>
    intro s gen htb hi hr
    obtain ⟨x, hx⟩ := htb
    have hn : gen.next s.tb = gen.next tb := by rw [hx]; exact Gen.next_schedules tb x gen
    have htb' : ∃ x, (s.step a).1.tb = { tb with schedules := x } := by
      obtain ⟨_, y, hy⟩ := s.before_step a
      exact ⟨y, by rw [hy, hx]⟩
    have hstep := s.step_interval hi (hr a (by simp))
    have hr' : ∀ a ∈ as, a.restarts i = false := fun b hb => hr b (List.mem_cons_of_mem _ hb)
    rw [Session.answers_cons, Session.run_cons]
    cases ha : a.isNext i with
    | false =>
      simp only [Bool.false_eq_true, if_false]
      exact ih _ gen htb' (hstep.2 ha) hr'
    | true =>
      simp only [if_true]
      obtain ⟨h1, h2⟩ := (hstep.1 ha).1 gen rfl
      rw [hn] at h1 h2
      rw [List.map_cons, List.length_cons, map_range_succ]
      have h3 := ih _ _ htb' h1 hr'
      rw [h3]
      refine congr (congrArg List.cons ?_) rfl
      exact (Session.before_run as _).sees h2

/-- The answers to `next(v)` before any iteration was started. -/
theorem Session.answers_not_iterated (i : Nat) (acts : List (Act L)) (v : Interval L) :
    ∀ (s : Session L), s.intervals[i]? = some (v, none) → (∀ a ∈ acts, a.restarts i = false) →
      ∀ r ∈ s.answers (Act.isNext i) acts, r = .error .attributeError := by
  induction acts with
  | nil => intro s _ _ r hr; cases hr
  | cons a as ih =>
    intro s hi hr r hmem
    have hstep := s.step_interval hi (hr a (by simp))
    have hr' : ∀ a ∈ as, a.restarts i = false := fun b hb => hr b (List.mem_cons_of_mem _ hb)
    rw [Session.answers_cons] at hmem
    cases ha : a.isNext i with
    | false =>
      rw [ha] at hmem
      simp only [Bool.false_eq_true, if_false] at hmem
      exact ih _ (hstep.2 ha) hr' r hmem
    | true =>
      rw [ha] at hmem
      simp only [if_true] at hmem
      obtain ⟨h1, h2⟩ := (hstep.1 ha).2 rfl
      rw [h1, h2] at hmem
      rcases List.mem_cons.1 hmem with h | h
      · exact h
      · exact ih _ hi hr' r h

/-- The search never meets an object that existed before. -/
theorem Gen.search_false (tb : Timeboard L) (sch : Schedule L) (w : Nat) (is : List Int) :
    ∀ (made : List (Workshift L)) (ws : List (Workshift L)), w < made.length → is.mapM (fun i => Workshift.new tb i (some sch)) = .ok ws →
      Gen.search tb sch w made is = (.ok false, made ++ ws, .finished) := by
  induction is with
  | nil =>
    intro made ws _ h
    simp only [List.mapM_nil] at h
    cases h
    simp [Gen.search]
  | cons i rest ih =>
    intro made ws hlt h
    rw [List.mapM_cons] at h
    cases hn : Workshift.new tb i (some sch) with
    | error e => rw [hn] at h; cases h
    | ok x =>
      rw [hn] at h
      simp only [Bind.bind, Except.bind] at h
      cases hr : rest.mapM (fun i => Workshift.new tb i (some sch)) with
      | error e => rw [hr] at h; cases h
      | ok ws' =>
        rw [hr] at h
        cases h
        unfold Gen.search
        rw [hn]
        simp only
        rw [if_neg (by omega), ih (made ++ [x]) ws' (by simp; omega) hr]
        simp

theorem Gen.contains_false {tb : Timeboard L} {v : Interval L} {ws : List (Workshift L)} (h : v.iter tb = .ok ws)
    {w : Nat} {made : List (Workshift L)} (hw : w < made.length) :
    Gen.contains tb w made v = (.ok false, made ++ ws, .finished) := by
  unfold Interval.iter Interval.workshifts at h
  unfold Gen.contains
  split at h
  · rename_i hvoid
    cases h
    rw [if_pos hvoid]
    simp
  · rename_i hvoid
    rw [if_neg hvoid]
    simp only [Option.getD_none] at h
    cases hd : v.dutyIdx tb .any v.schedule with
    | error e => rw [hd] at h; cases h
    | ok r =>
      rw [hd] at h
      obtain ⟨idx, _ | ⟨a, b⟩⟩ := r
      · cases h
        simp
      · exact Gen.search_false tb _ w _ made ws hw h

/-- Identities of delivered workshifts are new. -/
theorem Session.step_gives (s : Session L) (a : Act L) (ha : a.givesWorkshift = true) (n : Nat) (h : (s.step a).2 = .object n) :
    n = s.workshifts.length ∧ (s.step a).1.workshifts.length = n + 1 := by
  have hd : ∀ (s' : Session L) (o : Except Err (Option (Workshift L))), s'.workshifts = s.workshifts → (s'.deliver o).2 = .object n →
      n = s.workshifts.length ∧ (s'.deliver o).1.workshifts.length = n + 1 := by
    intro s' o hs h
    rcases o with e | _ | w
    · cases h
    · cases h
    · unfold Session.deliver at h ⊢
      simp only at h ⊢
      injection h with h
      rw [← h, List.length_append, hs]
      simp
  cases a with
  | workshift w =>
    unfold Session.step at h ⊢
    simp only at h ⊢
    injection h with h
    rw [← h, List.length_append]
    simp
  | advance g =>
    unfold Session.step at h ⊢
    simp only at h ⊢
    generalize s.generators[g]? = o at h ⊢
    cases o with
    | none => cases h
    | some gen => exact hd _ _ rfl h
  | next i =>
    unfold Session.step at h ⊢
    simp only at h ⊢
    generalize s.intervals[i]? = o at h ⊢
    rcases o with _ | ⟨v, _ | gen⟩
    · cases h
    · cases h
    · exact hd _ _ rfl h
  | interval v => cases ha
  | generate i d sch => cases ha
  | iter i => cases ha
  | contains i w => cases ha
  | equal w x => cases ha
  | addSchedule name sel => cases ha
  | dropSchedule sch => cases ha

theorem identities_cons (r : Res) (rs : List Res) :
    identities (r :: rs) = (match r with | .object n => [n] | _ => []) ++ identities rs := by
  unfold identities
  cases r <;> rfl

theorem Session.identities_fresh (acts : List (Act L)) : ∀ s : Session L,
    (identities (s.answers Act.givesWorkshift acts)).Pairwise (· < ·) ∧
    ∀ n ∈ identities (s.answers Act.givesWorkshift acts), s.workshifts.length ≤ n ∧ n < (s.run acts).1.workshifts.length := by
  induction acts with
  | nil => intro s; exact ⟨List.Pairwise.nil, fun n hn => by cases hn⟩
  | cons a as ih =>
    intro s
    rw [Session.answers_cons, Session.run_cons]
    obtain ⟨ih1, ih2⟩ := ih (s.step a).1
    have hle : s.workshifts.length ≤ (s.step a).1.workshifts.length := by
      obtain ⟨⟨ws, hw⟩, _⟩ := s.before_step a
      rw [hw, List.length_append]; omega
    have hle2 : (s.step a).1.workshifts.length ≤ ((s.step a).1.run as).1.workshifts.length := by
      obtain ⟨⟨ws, hw⟩, _⟩ := Session.before_run as (s.step a).1
      rw [hw, List.length_append]; omega
    cases ha : a.givesWorkshift with
    | false =>
      simp only [Bool.false_eq_true, if_false]
      exact ⟨ih1, fun n hn => ⟨by have := (ih2 n hn).1; omega, (ih2 n hn).2⟩⟩
    | true =>
      simp only [if_true]
      rw [identities_cons]
      have hg := s.step_gives a ha
      generalize (s.step a).2 = r at hg ⊢
      cases r with
      | object m =>
        obtain ⟨e1, e2⟩ := hg m rfl
        refine ⟨?_, ?_⟩
        · simp only [List.singleton_append, List.pairwise_cons]
          exact ⟨fun n hn => by have := (ih2 n hn).1; omega, ih1⟩
        · intro n hn
          simp only [List.singleton_append, List.mem_cons] at hn
          rcases hn with hn | hn
          · subst hn; exact ⟨by omega, by omega⟩
          · exact ⟨by have := (ih2 n hn).1; omega, (ih2 n hn).2⟩
      | truth b => exact ⟨ih1, fun n hn => ⟨by have := (ih2 n hn).1; omega, (ih2 n hn).2⟩⟩
      | done => exact ⟨ih1, fun n hn => ⟨by have := (ih2 n hn).1; omega, (ih2 n hn).2⟩⟩
      | stop => exact ⟨ih1, fun n hn => ⟨by have := (ih2 n hn).1; omega, (ih2 n hn).2⟩⟩
      | error e => exact ⟨ih1, fun n hn => ⟨by have := (ih2 n hn).1; omega, (ih2 n hn).2⟩⟩
      | nothing => exact ⟨ih1, fun n hn => ⟨by have := (ih2 n hn).1; omega, (ih2 n hn).2⟩⟩

end TB
