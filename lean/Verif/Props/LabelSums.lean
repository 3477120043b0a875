import Verif.Lemmas.LabelSums
import Verif.Examples.Boards
/-! Labels which are not numbers. -/
namespace TB
open TB.Ex
variable {L : Type}

/-- **C99**, the sum of labels. -/
theorem C99_sum {tb : Timeboard L} (h : tb.Reachable) {v : Interval L} (hv : tb.HasInterval v) (hnv : v.isVoid = false)
    {s : Option (Schedule L)} (hs : tb.OwnsOpt s) {d : Duty} (hd : d = .on ∨ d = .off ∨ d = .any) (kind : L → Val) :
    ∃ ws, v.workshifts tb d s = .ok ws ∧ v.sumAny tb kind d s = totalOf (ws.map (fun w => kind w.label)) := by
  have hvd := h.valid
  have fv := hv.fine hvd
  rcases fv.shape with hp | hh
  · exact hp.sumAny_eq hvd fv hs hd kind
  · rw [hh.void] at hnv; cases hnv

theorem totalOf_checked (vs : List Val) : (match totalOf vs with
      | .error e => (.error e : Except Err Val)
      | .ok result => match result.add (.number 0) with
        | .error e => .error e
        | .ok _ => .ok result) =
    if vs.all (fun v => v.worth.isSome) then .ok (.number (vs.filterMap Val.worth).sum) else .error .typeError := by
  unfold totalOf
  by_cases h1 : vs.all (fun v => v.worth.isSome) = true
  · rw [if_pos h1, if_pos h1]; rfl
  · rw [if_neg h1, if_neg h1]
    by_cases h2 : vs.all (fun v => v.words.isSome) = true
    · rw [if_pos h2]; rfl
    · rw [if_neg h2]
      by_cases h3 : vs = [.thing]
      · rw [if_pos h3]; rfl
      · rw [if_neg h3]

/-- **C99**, `worktime` of an interval: if the source is 'labels', missing labels count for nothing, and any other label which is not a number
is an error. -/
theorem C99_interval {tb : Timeboard L} (h : tb.Reachable) {v : Interval L} (hv : tb.HasInterval v)
    {s : Option (Schedule L)} (hs : tb.OwnsOpt s) {d : Duty} (hd : d = .on ∨ d = .off ∨ d = .any) (kind : L → Val) :
    (tb.worktimeSource = "duration" → v.worktimeAny tb kind d s = (v.totalDuration tb d s).map (fun x : Int => .number (x : Rat))) ∧
    (tb.worktimeSource = "labels" → ∃ ws, v.workshifts tb d s = .ok ws ∧
      v.worktimeAny tb kind d s = if ∀ w ∈ ws, (kind w.label).worth.isSome = true
        then .ok (.number (ws.filterMap (fun w => (kind w.label).worth)).sum) else .error .typeError) := by
  have hvd := h.valid
  have fv := hv.fine hvd
  rcases fv.shape with hp | hh
  · refine ⟨fun hsrc => ?_, fun hsrc => ?_⟩
    · unfold Interval.worktimeAny
      rw [hp.not_void, hsrc]
      rfl
    · obtain ⟨ws, h1, h2⟩ := hp.sumAny_eq hvd fv hs hd kind
      refine ⟨ws, h1, ?_⟩
      unfold Interval.worktimeAny
      rw [hp.not_void, hsrc, h2]
      simp only [Bool.false_eq_true, if_false, if_true]
      refine (totalOf_checked _).trans ?_
      rw [List.filterMap_map, List.all_map]
      have e : (ws.all ((fun v : Val => v.worth.isSome) ∘ fun w => kind w.label) = true) = (∀ w ∈ ws, (kind w.label).worth.isSome = true) := by
        rw [List.all_eq_true]; rfl
      simp only [e]
      rfl
  · obtain ⟨ws, h1, h2, _⟩ := fv.workshifts_spec hvd hs hd
    have hnil : v.workshifts tb d s = .ok [] := by unfold Interval.workshifts; rw [hh.void]; rfl
    refine ⟨fun _ => ?_, fun _ => ⟨[], hnil, ?_⟩⟩
    · unfold Interval.worktimeAny Interval.totalDuration
      rw [hh.void]; rfl
    · unfold Interval.worktimeAny
      rw [hh.void]; rfl

theorem Workshift.worktimeAny_eq {tb : Timeboard L} {w : Workshift L} (hl : tb.timeline.label w.loc = .ok w.label) (kind : L → Val)
    (s : Schedule L) {d : Duty} (hd : d = .on ∨ d = .off ∨ d = .any) :
    w.worktimeAny tb kind d (some s) =
      if dutyMatches d s.selector w.label then
        if tb.worktimeSource = "labels" then
          match (kind w.label).add (.number 0) with
          | .error e => .error e
          | .ok _ => .ok (kind w.label)
        else if tb.worktimeSource = "duration" then (w.duration tb).map (fun d : Int => .number (d : Rat))
        else .error .runtimeError
      else .ok (.number 0) := by
  unfold Workshift.worktimeAny
  simp only [Workshift.isOnDuty_eq hl, Workshift.isOffDuty_eq hl, bind, Except.bind, Option.getD_some]
  rcases hd with rfl | rfl | rfl
  · cases hsel : s.selector w.label <;> simp [dutyMatches, hsel, pure, Except.pure]
    · cases h : (kind w.label).add (.number 0) <;> cases hx : w.duration tb <;> simp [throw, throwThe, MonadExceptOf.throw, Except.map]
  · cases hsel : s.selector w.label <;> simp [dutyMatches, hsel, pure, Except.pure]
    · cases h : (kind w.label).add (.number 0) <;> cases hx : w.duration tb <;> simp [throw, throwThe, MonadExceptOf.throw, Except.map]
  · simp [dutyMatches, pure, Except.pure]
    cases h : (kind w.label).add (.number 0) <;> cases hx : w.duration tb <;> simp [throw, throwThe, MonadExceptOf.throw, Except.map]

/-- **C99**, `worktime` of a workshift: if the source is 'labels', the label itself when it is a number or NaN, an error otherwise. -/
theorem C99_workshift {tb : Timeboard L} (h : tb.Reachable) {k : Int} {sw : Option (Schedule L)} {w : Workshift L} (h0 : 0 ≤ k) (h1 : k < tb.timeline.len)
    (hw : Workshift.new tb k sw = .ok w) (kind : L → Val) (s : Option (Schedule L)) {d : Duty} (hd : d = .on ∨ d = .off ∨ d = .any) :
    (dutyMatches d (s.getD w.schedule).selector w.label = false → w.worktimeAny tb kind d s = .ok (.number 0)) ∧
    (dutyMatches d (s.getD w.schedule).selector w.label = true →
      (tb.worktimeSource = "duration" → w.worktimeAny tb kind d s = (w.duration tb).map (fun x : Int => .number (x : Rat))) ∧
      (tb.worktimeSource = "labels" → w.worktimeAny tb kind d s = match kind w.label with
        | .number q => .ok (.number q)
        | .nan => .ok .nan
        | _ => .error .typeError)) := by
  obtain ⟨w', e1, e2, _, e4, _⟩ := Workshift.exists_of_range h.valid sw h0 h1
  rw [hw] at e1
  cases e1
  have hg : w.worktimeAny tb kind d s = w.worktimeAny tb kind d (some (s.getD w.schedule)) := rfl
  rw [hg, Workshift.worktimeAny_eq (by rw [e2]; exact e4) kind _ hd]
  refine ⟨fun hm => ?_, fun hm => ⟨fun hsrc => ?_, fun hsrc => ?_⟩⟩
  · rw [hm]; rfl
  · rw [hm, hsrc]; rfl
  · rw [hm, hsrc]
    simp only [if_true]
    cases kind w.label <;> rfl

theorem sumNums_worth (kind : L → Val) : ∀ ls : List L, (sumNums (fun l => (kind l).worth) ls).map Val.number =
    if (ls.map kind).all (fun v => v.worth.isSome) then .ok (.number ((ls.map kind).filterMap Val.worth).sum) else .error .typeError
  | [] => rfl
  | l :: ls => by
    have ih := sumNums_worth kind ls
    rw [List.map_cons, List.all_cons, List.filterMap_cons]
    unfold sumNums
    cases hk : (kind l).worth with
    | none => rfl
    | some q =>
      simp only [Option.isSome_some, Bool.true_and]
      cases hs : sumNums (fun l => (kind l).worth) ls with
      | error e =>
        rw [hs] at ih
        cases ha : (ls.map kind).all (fun v => v.worth.isSome) with
        | true => rw [ha] at ih; cases ih
        | false => rw [ha] at ih; simp only [Except.map] at ih ⊢; exact ih
      | ok r =>
        rw [hs] at ih
        cases ha : (ls.map kind).all (fun v => v.worth.isSome) with
        | true =>
          rw [ha] at ih
          simp only [Except.map, if_true, Except.ok.injEq, Val.number.injEq] at ih ⊢
          rw [ih, List.sum_cons]
        | false => rw [ha] at ih; cases ih

/-- The model with labels which are numbers or not (`Model/Interval.lean`) is right for intervals if None and NaN are taken for 0. -/
theorem Interval.worktimeAny_eq (v : Interval L) (tb : Timeboard L) (kind : L → Val) (d : Duty) (s : Option (Schedule L)) :
    v.worktimeAny tb kind d s = (v.worktime tb (fun l => (kind l).worth) d s).map Val.number := by
  unfold Interval.worktimeAny Interval.worktime Interval.sumAny Interval.sumLabels
  cases v.isVoid with
  | true => rfl
  | false =>
    simp only [Bool.false_eq_true, if_false]
    by_cases h1 : tb.worktimeSource = "labels"
    · rw [if_pos h1, if_pos h1]
      cases v.dutyIdx tb d (s.getD v.schedule) with
      | error e => rfl
      | ok p =>
        obtain ⟨idx, o⟩ := p
        cases o with
        | none => rfl
        | some ab =>
          obtain ⟨a, b⟩ := ab
          simp only
          cases (slice idx a b).mapM (fun i => tb.timeline.label i) with
          | error e => rfl
          | ok ls => simp only; rw [seriesSum_eq, sumNums_worth]; exact totalOf_checked _
    · rw [if_neg h1, if_neg h1]
      by_cases h2 : tb.worktimeSource = "duration"
      · rw [if_pos h2, if_pos h2]
        cases v.totalDuration tb d s <;> rfl
      · rw [if_neg h2, if_neg h2]; rfl

theorem Workshift.worktimeAny_of_present {tb : Timeboard L} {w : Workshift L} (hl : tb.timeline.label w.loc = .ok w.label) (kind : L → Val)
    (s : Schedule L) {d : Duty} (hd : d = .on ∨ d = .off ∨ d = .any) (hp : dutyMatches d s.selector w.label = true → (kind w.label).Present) :
    w.worktimeAny tb kind d (some s) = (w.worktime tb (fun l => (kind l).worth) d (some s)).map Val.number := by
  rw [Workshift.worktimeAny_eq hl kind s hd, Workshift.worktime_eq hl _ s hd]
  cases hm : dutyMatches d s.selector w.label with
  | false => rfl
  | true =>
    have := hp hm
    simp only [if_true]
    split
    · cases hk : kind w.label with
      | nothing => exact absurd hk this.1
      | nan => exact absurd hk this.2
      | number q => rfl
      | text s => rfl
      | thing => rfl
    · split
      · cases w.duration tb <;> rfl
      · rfl

theorem mapM_map_number {α : Type} (f : α → Except Err Val) (g : α → Except Err Rat) : ∀ l : List α, (∀ x ∈ l, f x = (g x).map Val.number) →
    l.mapM f = (l.mapM g).map (List.map Val.number)
  | [], _ => rfl
  | x :: l, h => by
    rw [List.mapM_cons, List.mapM_cons, h x (by simp), mapM_map_number f g l (fun y hy => h y (by simp [hy]))]
    cases g x with
    | error e => rfl
    | ok a => cases l.mapM g <;> rfl

/-- **C27** for labels of any kind, as long as no label that counts is missing (None or NaN): the worktime of an interval is the sum of the numbers which
its workshifts give as their worktimes, and it raises TypeError exactly if one of them does.  What is missing: labels None and NaN,
see `C27_negation`. -/
theorem C27_any_label_partial {tb : Timeboard L} (h : tb.Reachable) {v : Interval L} (hv : tb.HasInterval v)
    {s : Option (Schedule L)} (hs : tb.OwnsOpt s) (kind : L → Val) {d : Duty} (hd : d = .on ∨ d = .off ∨ d = .any)
    (hp : ∀ ws, v.iter tb = .ok ws → ∀ w ∈ ws, dutyMatches d (s.getD v.schedule).selector w.label = true → (kind w.label).Present) :
    ∃ ws, v.iter tb = .ok ws ∧
      ((∃ qs : List Rat, ws.mapM (fun w : Workshift L => w.worktimeAny tb kind d (some (s.getD v.schedule))) = .ok (qs.map Val.number) ∧
        v.worktimeAny tb kind d s = .ok (.number qs.sum)) ∨
      (ws.mapM (fun w : Workshift L => w.worktimeAny tb kind d (some (s.getD v.schedule))) = .error .typeError ∧
        v.worktimeAny tb kind d s = .error .typeError)) := by
  have hvd := h.valid
  have fv := hv.fine hvd
  obtain ⟨ws, h1, h2, h3⟩ := fv.workshifts_spec hvd (sch := none) (by intro x hx; cases hx) (duty := .any) (.inr (.inr rfl))
  have hiter : v.iter tb = .ok ws := h1
  refine ⟨ws, hiter, ?_⟩
  have e := C27_worktime_is_sum h hv hs (fun l => (kind l).worth) d (fun _ => hd)
  rw [hiter] at e
  have em := mapM_map_number (fun w : Workshift L => w.worktimeAny tb kind d (some (s.getD v.schedule)))
    (fun w : Workshift L => w.worktime tb (fun l => (kind l).worth) d (some (s.getD v.schedule))) ws
    (fun w hw => Workshift.worktimeAny_of_present (h3 w hw).2 kind _ hd (hp ws hiter w hw))
  rw [em, Interval.worktimeAny_eq, e]
  have ho := (C27_worktime_outcomes h hv hs (fun l => (kind l).worth)).1 d hd
  cases hm : ws.mapM (fun w : Workshift L => w.worktime tb (fun l => (kind l).worth) d (some (s.getD v.schedule))) with
  | ok qs =>
    left
    refine ⟨qs, rfl, ?_⟩
    show Except.map Val.number (do let xs ← ws.mapM (fun w : Workshift L => w.worktime tb (fun l => (kind l).worth) d (some (s.getD v.schedule))); return xs.sum) = _
    rw [hm]; rfl
  | error x =>
    right
    have e' : v.worktime tb (fun l => (kind l).worth) d s = .error x := by
      rw [e]
      show (do let xs ← ws.mapM (fun w : Workshift L => w.worktime tb (fun l => (kind l).worth) d (some (s.getD v.schedule))); return xs.sum) = _
      rw [hm]; rfl
    rcases ho with ⟨o1, _⟩ | ⟨⟨q, o1⟩, _⟩
    · rw [e'] at o1
      cases o1
      refine ⟨rfl, ?_⟩
      rw [← e, e']; rfl
    · rw [e'] at o1; cases o1

/-- **C27** with the selector in effect by default, `bool(label)`, and unlabelled workshifts: None is off duty, so that the condition of
`C27_any_label_partial` is met for `duty='on'` unless a label is NaN. -/
theorem C27_default_selector {tb : Timeboard L} {v : Interval L} {s : Option (Schedule L)} (kind : L → Val)
    (hsel : ∀ l, (s.getD v.schedule).selector l = (kind l).truth) (hn : ∀ l, kind l ≠ .nan) :
    ∀ ws, v.iter tb = .ok ws → ∀ w ∈ ws, dutyMatches .on (s.getD v.schedule).selector w.label = true → (kind w.label).Present := by
  intro ws _ w _ hm
  refine ⟨fun hk => ?_, hn _⟩
  unfold dutyMatches at hm
  rw [hsel, hk] at hm
  cases hm

/-- Four days: the first unlabelled, the second labelled NaN, the others 8. -/
def looseArgs : Args Val where
  freq := fD
  start := date 2017 1 1
  stop := date 2017 1 4
  layout := .organizer (.marks [date 2017 1 2, date 2017 1 3]) [.pattern (.list []), .pattern (.list [.nan]), .pattern (.list [.number 8])]
  selector := Val.truth
  defaultLabel := .nothing
  worktimeSource := "labels"

def loose : Timeboard Val :=
  match h : Timeboard.new looseArgs (fun _ => Cycle.start []) with
  | .ok r => r.1
  | .error _ => absurd (show (Timeboard.new looseArgs (fun _ => Cycle.start [])).isOk = true by decide +kernel) (by rw [h]; intro h; cases h)

theorem loose_reachable : loose.Reachable := by
  unfold loose
  split
  · rename_i r hr
    exact .new (a := looseArgs) (heap := fun _ => Cycle.start []) (heap' := r.2) hr
  · rename_i e he
    exact absurd (show (Timeboard.new looseArgs (fun _ => Cycle.start [])).isOk = true by decide +kernel) (by rw [he]; intro h; cases h)

/-- **C27**, the code differs from the claim: the worktime of an interval which consists of one unlabelled workshift is 0, whereas the
workshift itself raises TypeError; if its label is NaN, the worktime of the interval is 0 and that of the workshift NaN. -/
theorem C27_negation : loose.Reachable ∧
    (∃ v w, Interval.new loose (0, 0) = .ok v ∧ Workshift.new loose 0 = .ok w ∧ (v.iter loose).map (List.map (fun w => w.loc)) = .ok [w.loc] ∧
      v.worktimeAny loose id .any = .ok (.number 0) ∧ w.worktimeAny loose id .any = .error .typeError) ∧
    (∃ v w, Interval.new loose (1, 1) = .ok v ∧ Workshift.new loose 1 = .ok w ∧ (v.iter loose).map (List.map (fun w => w.loc)) = .ok [w.loc] ∧
      v.worktimeAny loose id .on = .ok (.number 0) ∧ w.worktimeAny loose id .on = .ok .nan) := by
  refine ⟨loose_reachable, ⟨_, { loc := 0, schedule := loose.defaultSchedule, label := .nothing }, Interval.new_ok_iff.2 ⟨by decide +kernel, by decide +kernel, by decide +kernel, rfl⟩, ?_, ?_, ?_, ?_⟩,
    ⟨_, { loc := 1, schedule := loose.defaultSchedule, label := .nan }, Interval.new_ok_iff.2 ⟨by decide +kernel, by decide +kernel, by decide +kernel, rfl⟩, ?_, ?_, ?_, ?_⟩⟩
  all_goals first | decide +kernel | rfl

/-! Examples: on the board above the worktime of the whole is 16; the strings of the project's test (test_interval_methods.py 661-668); numbers and
strings have no total. -/

/-- The worktime of the workshifts from the first number to the second one. -/
def exWorktime (tb : Timeboard Val) (b : Int × Int) (d : Duty) : Except Err Val := do
  let v ← Interval.new tb b
  v.worktimeAny tb id d

example : exWorktime loose (0, 3) .any = .ok (.number 16) ∧ exWorktime loose (0, 3) .on = .ok (.number 16) ∧
    exWorktime loose (0, 1) .off = .ok (.number 0) := by decide +kernel

/-- test_interval_methods.py 662-665. -/
def exStrings (labels : List Val) (d : Duty) : Except Err Val := do
  let (tb, _) ← Timeboard.new { freq := fD, start := date 2017 10 1, stop := date 2017 10 10, layout := .pattern (.list labels)
                                selector := fun l => decide (l = .text "b"), defaultLabel := .nothing } (fun _ => Cycle.start [])
  let v ← Interval.new tb (2, 9)
  v.sumAny tb id d none

example : exStrings [.text "a", .text "b"] .on = .ok (.text "bbbb") ∧ exStrings [.text "a", .text "b"] .off = .ok (.text "aaaa") ∧
    exStrings [.text "a", .text "b"] .any = .ok (.text "abababab") ∧ exStrings [.number 1, .text "b"] .any = .error .typeError ∧
    exStrings [.number 1, .text "b"] .off = .ok (.number 4) ∧ exStrings [.nothing, .text "b"] .any = .error .typeError := by decide +kernel

end TB
