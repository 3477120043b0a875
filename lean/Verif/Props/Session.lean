import Verif.Lemmas.Session
import Verif.Examples.Boards
/-!
# Properties of programs which hold several objects
-/
namespace TB

variable {L : Type}

/-- **C113.** `v.workshifts(duty, schedule)` returns a generator without any complaint. However its advances are mixed with other
operations (advancing other generators, iterating over the interval or over other ones, adding and dropping schedules), they give
the workshifts of the interval with that duty one by one and then StopIteration ever after; if the duty is not a valid one, the
first advance raises the exception. -/
theorem C113_generators {s : Session L} (h : s.tb.Reachable) {i : Nat} {v : Interval L} {it : Option (Gen L)}
    (hi : s.intervals[i]? = some (v, it)) (hv : s.tb.HasInterval v) (duty : Duty) {sch : Option (Schedule L)} (ho : s.tb.OwnsOpt sch) :
    ∃ g s', s.step (.generate i duty sch) = (s', .object g) ∧ ∀ acts,
      (s'.answers (Act.isAdvance g) acts).map (s'.run acts).1.sees =
        (List.range (s'.answers (Act.isAdvance g) acts).length).map (fun k => some (v.turn s.tb duty sch k)) := by
  refine ⟨s.generators.length, { s with generators := s.generators ++ [.fresh v duty sch] }, ?_, ?_⟩
  · simp only [Session.step, hi]
  · intro acts
    rw [Session.answers_generator s.tb s.generators.length acts { s with generators := s.generators ++ [.fresh v duty sch] }
      (.fresh v duty sch) ⟨s.tb.schedules, rfl⟩ (by simp)]
    simp only [Gen.outcome_fresh h hv ho duty]

/-- **C113.** Likewise for the iteration over an Interval object: after `iter(v)`, the calls `next(v)` give all workshifts of the
interval one by one and then StopIteration, however they are mixed with other operations, as long as no other iteration over the
same object is started. -/
theorem C113_iteration {s : Session L} (h : s.tb.Reachable) {i : Nat} {v : Interval L} {it : Option (Gen L)}
    (hi : s.intervals[i]? = some (v, it)) (hv : s.tb.HasInterval v) :
    ∃ s', s.step (.iter i) = (s', .object i) ∧ ∀ acts, (∀ a ∈ acts, a.restarts i = false) →
      (s'.answers (Act.isNext i) acts).map (s'.run acts).1.sees =
        (List.range (s'.answers (Act.isNext i) acts).length).map (fun k => some (v.turn s.tb .any none k)) := by
  have hlt : i < s.intervals.length := by
    by_cases h : i < s.intervals.length
    · exact h
    · rw [List.getElem?_eq_none (by omega)] at hi; cases hi
  refine ⟨{ s with intervals := s.intervals.set i (v, some (.fresh v .any none)) }, ?_, ?_⟩
  · simp only [Session.step, hi]
  · intro acts hr
    rw [Session.answers_interval s.tb i acts v { s with intervals := s.intervals.set i (v, some (.fresh v .any none)) }
      (.fresh v .any none) ⟨s.tb.schedules, rfl⟩ (by simp [hlt]) hr]
    simp only [Gen.outcome_fresh h hv (sch := none) (by intro x hx; cases hx) .any]

/-- **C113.** A new Interval object is not an iterator yet: `next(v)` raises AttributeError until an iteration over it is started. -/
theorem C113_not_iterated (s : Session L) (v : Interval L) :
    ∃ i s', s.step (.interval v) = (s', .object i) ∧ ∀ acts, (∀ a ∈ acts, a.restarts i = false) →
      ∀ r ∈ s'.answers (Act.isNext i) acts, r = .error .attributeError :=
  ⟨s.intervals.length, { s with intervals := s.intervals ++ [(v, none)] }, rfl, fun acts hr =>
    Session.answers_not_iterated _ acts v _ (by simp) hr⟩

/-- **C113.** What the first answers of a generator are, spelled out: the workshifts have ascending positions, and they are
exactly those of the interval with the duty. -/
theorem C113_turns {tb : Timeboard L} (h : tb.Reachable) {v : Interval L} (hv : tb.HasInterval v) {duty : Duty} {sch : Option (Schedule L)}
    (ho : tb.OwnsOpt sch) :
    (duty = .on ∨ duty = .off ∨ duty = .any → ∃ ws, v.workshifts tb duty sch = .ok ws ∧ (∀ k, v.turn tb duty sch k = .ok ws[k]?) ∧
      ws.map (fun w => w.loc) = tb.dutyPositions (sch.getD v.schedule).selector duty v.lo v.hi) ∧
    (¬ (duty = .on ∨ duty = .off ∨ duty = .any) → v.isVoid = false →
      ∀ k, v.turn tb duty sch k = if k = 0 then .error .valueError else .ok none) ∧
    (v.isVoid = true → ∀ k, v.turn tb duty sch k = .ok none) := by
  refine ⟨fun hd => ?_, fun hd hvoid k => ?_, fun hvoid k => ?_⟩
  · obtain ⟨ws, h1, h2, _⟩ := (hv.fine h.valid).workshifts_spec h.valid ho hd
    exact ⟨ws, h1, fun k => by simp only [Interval.turn, h1], h2⟩
  · have : v.workshifts tb duty sch = .error .valueError := by
      unfold Interval.workshifts
      rw [if_neg (by simp [hvoid])]
      simp only
      have : v.dutyIdx tb duty (sch.getD v.schedule) = .error .valueError := by
        unfold Interval.dutyIdx
        cases duty <;> simp_all
      rw [this]
    simp only [Interval.turn, this]
  · have : v.workshifts tb duty sch = .ok [] := by
      unfold Interval.workshifts
      rw [if_pos hvoid]
    simp [Interval.turn, this]

/-- **C113.** Every Workshift object handed to the program is a new one: no two of them are the same object, nor is any of them one of
those which existed before. -/
theorem C113_new_objects (s : Session L) (acts : List (Act L)) :
    (identities (s.answers Act.givesWorkshift acts)).Pairwise (· ≠ ·) ∧
    ∀ n ∈ identities (s.answers Act.givesWorkshift acts), s.workshifts.length ≤ n :=
  ⟨(Session.identities_fresh acts s).1.imp (fun h => by omega), fun n hn => ((Session.identities_fresh acts s).2 n hn).1⟩

/-- **C114 (partial).** `w in v` is not an error, it gives False for a workshift outside of the interval, and it changes neither the
timeboard, nor the generators, nor other intervals. What is missing: True for a workshift inside of the interval (next theorem). -/
theorem C114_membership_partial {s : Session L} (h : s.tb.Reachable) {i : Nat} {v : Interval L} {it : Option (Gen L)}
    (hi : s.intervals[i]? = some (v, it)) (hv : s.tb.HasInterval v) {n : Nat} {w : Workshift L} (hw : s.workshifts[n]? = some w) :
    ∃ s' b, s.step (.contains i n) = (s', .truth b) ∧ (¬ v.Contains s.tb w.loc → b = false) ∧
      s'.tb = s.tb ∧ s'.generators = s.generators ∧ ∀ j, j ≠ i → s'.intervals[j]? = s.intervals[j]? := by
  obtain ⟨ws, hws, _⟩ := (hv.fine h.valid).iter_spec h.valid
  have hlt : n < s.workshifts.length := by
    by_cases h : n < s.workshifts.length
    · exact h
    · rw [List.getElem?_eq_none (by omega)] at hw; cases hw
  refine ⟨{ s with intervals := s.intervals.set i (v, some .finished), workshifts := s.workshifts ++ ws }, false, ?_, fun _ => rfl, rfl, rfl, ?_⟩
  · simp only [Session.step, hi, if_pos hlt, Gen.contains_false hws hlt]
  · intro j hj
    show (s.intervals.set i _)[j]? = _
    rw [List.getElem?_set_ne (Ne.symm hj)]

/-- **C114, what fails.** `w in v` is False for every workshift, even for one which has just been obtained from the interval; and
it uses up the iteration over the object: any `next(v)` afterwards is StopIteration until another iteration is started, so
that a loop over the interval which is going on ends early. -/
theorem C114_membership_fails {s : Session L} (h : s.tb.Reachable) {i : Nat} {v : Interval L} {it : Option (Gen L)}
    (hi : s.intervals[i]? = some (v, it)) (hv : s.tb.HasInterval v) {n : Nat} {w : Workshift L} (hw : s.workshifts[n]? = some w) :
    ∃ s', s.step (.contains i n) = (s', .truth false) ∧ ∀ acts, (∀ a ∈ acts, a.restarts i = false) →
      ∀ r ∈ s'.answers (Act.isNext i) acts, r = .stop := by
  obtain ⟨ws, hws, _⟩ := (hv.fine h.valid).iter_spec h.valid
  have hlt : n < s.workshifts.length := by
    by_cases h : n < s.workshifts.length
    · exact h
    · rw [List.getElem?_eq_none (by omega)] at hw; cases hw
  have hlti : i < s.intervals.length := by
    by_cases h : i < s.intervals.length
    · exact h
    · rw [List.getElem?_eq_none (by omega)] at hi; cases hi
  refine ⟨{ s with intervals := s.intervals.set i (v, some .finished), workshifts := s.workshifts ++ ws }, ?_, ?_⟩
  · simp only [Session.step, hi, if_pos hlt, Gen.contains_false hws hlt]
  · intro acts hr r hmem
    generalize hz : ({ s with intervals := s.intervals.set i (v, some .finished), workshifts := s.workshifts ++ ws } : Session L) = z at hmem
    have hzi : z.intervals[i]? = some (v, some .finished) := by rw [← hz]; simp [hlti]
    have hzt : ∃ x, z.tb = { s.tb with schedules := x } := by rw [← hz]; exact ⟨s.tb.schedules, rfl⟩
    have := Session.answers_interval s.tb i acts v z .finished hzt hzi hr
    simp only [Gen.outcome_finished] at this
    have hs : ∀ x ∈ (z.answers (Act.isNext i) acts).map (z.run acts).1.sees, x = some (.ok none) := by
      intro x hx
      rw [this] at hx
      obtain ⟨k, _, hk⟩ := List.mem_map.1 hx
      exact hk.symm
    have := hs _ (List.mem_map.2 ⟨r, hmem, rfl⟩)
    generalize z.run acts = y at this
    cases r with
    | object m =>
      unfold Session.sees at this
      simp only at this
      generalize y.1.workshifts[m]? = o at this
      cases o <;> cases this
    | stop => rfl
    | error e => cases this
    | truth b => cases this
    | done => cases this
    | nothing => cases this

/-- **C114.** `w == x` is True exactly for the same object; hence two workshifts delivered by different operations are never
equal, even if they are at the same position of the timeboard and under the same schedule. -/
theorem C114_equality {s : Session L} {n m : Nat} {w x : Workshift L} (hw : s.workshifts[n]? = some w) (hx : s.workshifts[m]? = some x) :
    s.step (.equal n m) = (s, .truth (n == m)) := by
  have hn : n < s.workshifts.length := by
    by_cases h : n < s.workshifts.length
    · exact h
    · rw [List.getElem?_eq_none (by omega)] at hw; cases hw
  have hm : m < s.workshifts.length := by
    by_cases h : m < s.workshifts.length
    · exact h
    · rw [List.getElem?_eq_none (by omega)] at hx; cases hx
  simp only [Session.step, if_pos (And.intro hn hm)]

/-- **C114.** The truth value of an interval tells whether there is any workshift in it: `if overlap: …` works as expected. -/
theorem C114_truth_value {tb : Timeboard L} (h : tb.Reachable) {v : Interval L} (hv : tb.HasInterval v) :
    (v.truth = true ↔ ∃ k, v.Contains tb k) ∧ (v.truth = false ↔ v.isVoid = true) := by
  have fv := hv.fine h.valid
  obtain ⟨ws, hws, hl⟩ := fv.iter_spec h.valid
  have hlen : (ws.length : Int) = v.len := by
    have := congrArg List.length hl
    rw [List.length_map] at this
    rw [this]
    exact fv.len_eq.symm
  have h1 : v.truth = true ↔ ws ≠ [] := by
    unfold Interval.truth
    cases ws with
    | nil => simp at hlen; simp [← hlen]
    | cons w ws => simp at hlen; simp; omega
  refine ⟨?_, ?_⟩
  · rw [h1]
    refine ⟨fun hne => ?_, fun hk => ?_⟩
    · cases ws with
      | nil => exact absurd rfl hne
      | cons w ws => exact ⟨w.loc, _, hws, w, by simp, rfl⟩
    · obtain ⟨k, ws', hws', w, hw, _⟩ := hk
      rw [hws] at hws'
      cases hws'
      intro he
      rw [he] at hw; cases hw
  · have h2 : v.truth = false ↔ v.len = 0 := by unfold Interval.truth; simp
    rw [h2]
    rcases fv.shape with hp | hh
    · have h1 := hp.not_void
      have h2 := hp.length_eq
      have h3 := hp.lo_le_hi
      simp only [h1, Bool.false_eq_true, iff_false, Interval.len, h2]
      omega
    · have h1 := hh.void
      have h2 := hh.length_eq
      simp only [h1, iff_true]
      exact h2

/-! Concrete cases: Saturday 7 to Monday 9 January (positions 6..8) of the example, where Sunday is on duty. -/
section
open Ex

def heldInterval : Interval Int :=
  match Interval.new week (6, 8) with
  | .ok v => v
  | .error _ => { lo := 0, hi := 0, length := 0, schedule := week.defaultSchedule, isVoid := true }

theorem heldInterval_ok : week.HasInterval heldInterval := by
  refine .new (a := 6) (b := 8) (s := none) (by intro x hx; cases hx) ?_
  unfold heldInterval
  split
  · assumption
  · rename_i h; exact absurd h (by
      intro h
      have : (Interval.new week (6, 8)).map (fun _ => ()) = .ok () := by decide +kernel
      rw [h] at this; cases this)

/-- The program holds one Interval object. -/
def heldStart : Session Int where
  tb := week
  workshifts := []
  generators := []
  intervals := [(heldInterval, none)]

/-- The positions of the Workshift objects. -/
def heldLocs (s : Session Int) : List Int := s.workshifts.map (fun w => w.loc)

/-- Two generators with the wrong and the right duty and the iteration over the object, all advanced in turns. -/
def heldMixed : List (Act Int) :=
  [.next 0, .generate 0 .same none, .generate 0 .on none, .advance 1, .iter 0, .next 0, .advance 0, .next 0, .advance 1, .advance 0,
    .next 0, .advance 1, .next 0, .advance 1]

#guard (heldStart.run heldMixed).2 =
  [.error .attributeError, .object 0, .object 1, .object 0, .object 0, .object 1, .error .valueError, .object 2, .object 3, .stop,
    .object 4, .stop, .stop, .stop]
#guard heldLocs (heldStart.run heldMixed).1 = [7, 6, 7, 8, 8]

/-- `for w in v: …` asks whether `w in v`: the answer is False and the loop ends after the first workshift. -/
def heldAsked : List (Act Int) := [.iter 0, .next 0, .contains 0 0, .next 0, .iter 0, .next 0, .equal 0 4, .equal 0 0]

#guard (heldStart.run heldAsked).2 = [.object 0, .object 0, .truth false, .stop, .object 0, .object 4, .truth false, .truth true]
#guard heldLocs (heldStart.run heldAsked).1 = [6, 6, 7, 8, 6]

/-- The hypotheses are met, and the membership fails: the workshift handed out first is at position 7, which the interval
contains. -/
example : ∃ (s : Session Int) (i n : Nat) (v : Interval Int) (it : Option (Gen Int)) (w : Workshift Int), s.tb.Reachable ∧ s.intervals[i]? = some (v, it) ∧ s.tb.HasInterval v ∧
    s.workshifts[n]? = some w ∧ (v.lo ≤ w.loc ∧ w.loc ≤ v.hi) ∧ (s.step (.contains i n)).2 = .truth false := by
  let w : Workshift Int := ⟨7, 0, week.defaultSchedule⟩
  refine ⟨{ heldStart with workshifts := [w] }, 0, 0, heldInterval, none, w, week_reachable, rfl, heldInterval_ok, rfl, by decide +kernel, ?_⟩
  obtain ⟨s', h, _⟩ := C114_membership_fails (s := { heldStart with workshifts := [w] }) week_reachable (i := 0) rfl heldInterval_ok (n := 0)
    (w := w) rfl
  rw [h]

end

end TB
