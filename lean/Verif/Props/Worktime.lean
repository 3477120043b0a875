import Verif.Lemmas.Intervals
import Verif.Props.Duty
/-! Property C27: worktime. -/
namespace TB
open TB.Ex
variable {L : Type}

theorem Workshift.worktime_eq {tb : Timeboard L} {w : Workshift L} (hl : tb.timeline.label w.loc = .ok w.label) (num : L → Option Rat)
    (s : Schedule L) {d : Duty} (hd : d = .on ∨ d = .off ∨ d = .any) :
    w.worktime tb num d (some s) =
      if dutyMatches d s.selector w.label then
        if tb.worktimeSource = "labels" then
          match num w.label with
          | none => .error .typeError
          | some q => .ok q
        else if tb.worktimeSource = "duration" then (w.duration tb).map (fun d : Int => (d : Rat))
        else .error .runtimeError
      else .ok 0 := by
  unfold Workshift.worktime
  simp only [Workshift.isOnDuty_eq hl, Workshift.isOffDuty_eq hl, bind, Except.bind, Option.getD_some]
  have hdur : ∀ x : Except Err Int, (match x with
      | .error e => .error e
      | .ok d => (pure ((d : Int) : Rat) : Except Err Rat)) = x.map (fun d : Int => (d : Rat)) := by
    intro x; cases x <;> rfl
  rcases hd with rfl | rfl | rfl
  · cases hsel : s.selector w.label <;> simp [dutyMatches, hsel, pure, Except.pure]
    · cases h : num w.label <;> cases hx : w.duration tb <;> simp [throw, throwThe, MonadExceptOf.throw, Except.map]
  · cases hsel : s.selector w.label <;> simp [dutyMatches, hsel, pure, Except.pure]
    · cases h : num w.label <;> cases hx : w.duration tb <;> simp [throw, throwThe, MonadExceptOf.throw, Except.map]
  · simp [dutyMatches, pure, Except.pure]
    cases h : num w.label <;> cases hx : w.duration tb <;> simp [throw, throwThe, MonadExceptOf.throw, Except.map]

theorem Workshift.worktime_bad {tb : Timeboard L} {w : Workshift L} (hl : tb.timeline.label w.loc = .ok w.label) (num : L → Option Rat)
    (s : Option (Schedule L)) {d : Duty} (hd : ¬ (d = .on ∨ d = .off ∨ d = .any)) : w.worktime tb num d s = .error .valueError := by
  unfold Workshift.worktime
  simp only [Workshift.isOnDuty_eq hl, Workshift.isOffDuty_eq hl, bind, Except.bind]
  cases d <;> simp at hd <;> rfl

/-- Positions with the duty among the positions of the list. -/
theorem filter_duty_cons {tb : Timeboard L} {sel : L → Bool} {d : Duty} {k : Int} {ks : List Int} {l : L}
    (hl : tb.timeline.label k = .ok l) :
    ((k :: ks).filter (fun k => match tb.timeline.label k with | .ok l => dutyMatches d sel l | .error _ => false)) =
      if dutyMatches d sel l then k :: ks.filter (fun k => match tb.timeline.label k with | .ok l => dutyMatches d sel l | .error _ => false)
      else ks.filter (fun k => match tb.timeline.label k with | .ok l => dutyMatches d sel l | .error _ => false) := by
  rw [List.filter_cons]
  simp only [hl]

theorem mapM_label_ok {tb : Timeboard L} {ks : List Int} (h : ∀ k ∈ ks, ∃ l, tb.timeline.label k = .ok l) :
    ∃ ls, ks.mapM (fun i => tb.timeline.label i) = .ok ls := by
  induction ks with
  | nil => exact ⟨[], rfl⟩
  | cons k ks ih =>
    obtain ⟨l, hl⟩ := h k (by simp)
    obtain ⟨ls, hls⟩ := ih (fun x hx => h x (by simp [hx]))
    exact ⟨l :: ls, by rw [List.mapM_cons, hl, hls]; rfl⟩

theorem sum_labels_eq {tb : Timeboard L} (hsrc : tb.worktimeSource = "labels") (num : L → Option Rat) (s : Schedule L) {d : Duty}
    (hd : d = .on ∨ d = .off ∨ d = .any) (ws : List (Workshift L)) (hl : ∀ w ∈ ws, tb.timeline.label w.loc = .ok w.label) :
    (match ((ws.map (fun w : Workshift L => w.loc)).filter (fun k => match tb.timeline.label k with
        | .ok l => dutyMatches d s.selector l
        | .error _ => false)).mapM (fun i => tb.timeline.label i) with
      | .error e => (.error e : Except Err Rat)
      | .ok ls => sumNums num ls) = (ws.mapM (fun w : Workshift L => w.worktime tb num d (some s))).map List.sum := by
  induction ws with
  | nil => rfl
  | cons w ws ih =>
    have h1 := hl w (by simp)
    have ih := ih (fun x hx => hl x (by simp [hx]))
    rw [List.map_cons, filter_duty_cons h1, List.mapM_cons, Workshift.worktime_eq h1 num s hd]
    cases hm : dutyMatches d s.selector w.label with
    | false =>
      simp only [Bool.false_eq_true, if_false, bind, Except.bind]
      rw [ih]
      cases ws.mapM (fun w : Workshift L => w.worktime tb num d (some s)) with
      | error e => rfl
      | ok xs => simp only [Except.map, pure, Except.pure, List.sum_cons, Rat.zero_add]
    | true =>
      simp only [if_true, hsrc, List.mapM_cons, h1, bind, Except.bind]
      generalize hG : List.mapM (fun i => tb.timeline.label i) (List.filter _ (List.map (fun w => w.loc) ws)) = G at ih ⊢
      generalize hH : ws.mapM (fun w : Workshift L => w.worktime tb num d (some s)) = H at ih ⊢
      cases G with
      | error e =>
        exfalso
        obtain ⟨ls, hls⟩ := mapM_label_ok (tb := tb) (ks := List.filter (fun k => match tb.timeline.label k with
            | .ok l => dutyMatches d s.selector l
            | .error _ => false) (List.map (fun w => w.loc) ws)) (by
          intro k hk
          have := (List.mem_filter.1 hk).1
          obtain ⟨w', hw', rfl⟩ := List.mem_map.1 this
          exact ⟨_, hl w' (by simp [hw'])⟩)
        rw [hls] at hG; cases hG
      | ok ls =>
        simp only [pure, Except.pure] at ih ⊢
        unfold sumNums
        cases hq : num w.label with
        | none => simp only [Except.map]
        | some q =>
          cases H with
          | error e => simp only [Except.map] at ih; rw [ih]; simp only [Except.map]
          | ok xs => simp only [Except.map] at ih; rw [ih]; simp only [Except.map, List.sum_cons]

theorem sum_durations_eq {tb : Timeboard L} (hv : tb.Valid) (hsrc : tb.worktimeSource = "duration") (num : L → Option Rat) (s : Schedule L)
    {d : Duty} (hd : d = .on ∨ d = .off ∨ d = .any) (ws : List (Workshift L))
    (hl : ∀ w ∈ ws, tb.timeline.label w.loc = .ok w.label ∧ 0 ≤ w.loc ∧ w.loc < tb.timeline.len) :
    (ws.mapM (fun w : Workshift L => w.worktime tb num d (some s))).map List.sum =
      (.ok : Rat → Except Err Rat) ((((((ws.map (fun w : Workshift L => w.loc)).filter (fun k => match tb.timeline.label k with
        | .ok l => dutyMatches d s.selector l
        | .error _ => false)).map (fun k => tb.timeline.bnd (k + 1) - tb.timeline.bnd k)).sum : Int)) : Rat) := by
  induction ws with
  | nil => rfl
  | cons w ws ih =>
    have h1 := hl w (by simp)
    have ih := ih (fun x hx => hl x (by simp [hx]))
    have hdur : w.duration tb = .ok (tb.timeline.bnd (w.loc + 1) - tb.timeline.bnd w.loc) := by
      unfold Workshift.duration; exact hv.wf.wsDuration_eq h1.2.1 h1.2.2
    rw [List.map_cons, filter_duty_cons h1.1, List.mapM_cons, Workshift.worktime_eq h1.1 num s hd]
    generalize hH : ws.mapM (fun w : Workshift L => w.worktime tb num d (some s)) = H at ih ⊢
    cases H with
    | error e => cases ih
    | ok xs =>
      simp only [Except.map, Except.ok.injEq] at ih
      cases hm : dutyMatches d s.selector w.label with
      | false =>
        simp only [Bool.false_eq_true, if_false, bind, Except.bind, Except.map, pure, Except.pure, List.sum_cons, Rat.zero_add, ih]
      | true =>
        have hne : ¬ ("duration" = "labels") := by decide
        simp only [if_true, hsrc, hne, if_false, hdur, bind, Except.bind, Except.map, pure, Except.pure, List.sum_cons, List.map_cons, ih, Rat.intCast_add]

theorem rat_sum_pointwise {α : Type} (f g h : α → Rat) (l : List α) (hh : ∀ x ∈ l, f x + g x = h x) :
    (l.map f).sum + (l.map g).sum = (l.map h).sum := by
  induction l with
  | nil => simp [Rat.add_zero]
  | cons x xs ih =>
    simp only [List.map_cons, List.sum_cons]
    rw [← ih (fun y hy => hh y (by simp [hy])), ← hh x (by simp)]
    grind

/-- **C27.** The worktime of an interval is the sum of the worktimes of all its workshifts under the same schedule, errors
included (in particular TypeError when the label of a workshift with the duty is not a number). -/
theorem C27_worktime_is_sum {tb : Timeboard L} (h : tb.Reachable) {v : Interval L} (hv : tb.HasInterval v)
    {s : Option (Schedule L)} (hs : tb.OwnsOpt s) (num : L → Option Rat) (d : Duty) (hd : v.isVoid = true → d = .on ∨ d = .off ∨ d = .any) :
    v.worktime tb num d s = (do
      let ws ← v.iter tb
      let xs ← ws.mapM (fun w : Workshift L => w.worktime tb num d (some (s.getD v.schedule)))
      return xs.sum) := by
  have hvd := h.valid
  have fv := hv.fine hvd
  obtain ⟨ws, h1, h2, h3⟩ := fv.workshifts_spec hvd (sch := none) (by intro x hx; cases hx) (duty := .any) (.inr (.inr rfl))
  have h0 := fv.nonneg
  have hlt := fv.lt
  rw [hvd.dutyPositions_any _ (by omega) (by omega)] at h2
  have hiter : v.iter tb = .ok ws := h1
  have hrange : ∀ w ∈ ws, tb.timeline.label w.loc = .ok w.label ∧ 0 ≤ w.loc ∧ w.loc < tb.timeline.len := by
    intro w hw
    have : w.loc ∈ ws.map (fun w => w.loc) := List.mem_map.2 ⟨w, hw, rfl⟩
    rw [h2, mem_intRange] at this
    exact ⟨(h3 w hw).2, by omega, by omega⟩
  rw [hiter]
  have hR : ∀ X : Except Err (List Rat), (do let xs ← X; return xs.sum : Except Err Rat) = X.map List.sum := by
    intro X; cases X <;> rfl
  show _ = (do let xs ← ws.mapM (fun w : Workshift L => w.worktime tb num d (some (s.getD v.schedule))); return xs.sum)
  rw [hR]
  by_cases hdd : d = .on ∨ d = .off ∨ d = .any
  · rcases fv.shape with hp | hh
    · have ho := owns_getD_fine fv hs
      unfold Interval.worktime
      simp only [hp.not_void, Bool.false_eq_true, if_false]
      rcases hvd.source with hsrc | hsrc
      · have hne : ¬ (tb.worktimeSource = "labels") := by rw [hsrc]; decide
        rw [if_neg hne, if_pos hsrc, hp.totalDuration_eq hvd ho hdd, sum_durations_eq hvd hsrc num _ hdd ws hrange, h2]
        rfl
      · rw [if_pos hsrc, ← sum_labels_eq hsrc num _ hdd ws (fun w hw => (hrange w hw).1), h2]
        unfold Interval.sumLabels
        rcases hp.dutyIdx_spec hvd ho hdd with ⟨idx, e1, e2⟩ | ⟨idx, a, b, e1, e2, e3, e4, e5⟩
        · rw [e1]
          simp only
          change _ = (match List.mapM (fun i => tb.timeline.label i) (tb.dutyPositions (s.getD v.schedule).selector d v.lo v.hi) with
            | .error e => (.error e : Except Err Rat)
            | .ok ls => sumNums num ls)
          rw [e2]; rfl
        · rw [e1]
          simp only
          rw [e5]; rfl
    · have : ws = [] := by
        have := hh.hi_lt_lo
        rw [intRange_empty (by omega)] at h2
        exact List.map_eq_nil_iff.1 h2
      subst this
      unfold Interval.worktime
      simp only [hh.void, if_true]; rfl
  · rcases fv.shape with hp | hh
    · unfold Interval.worktime Interval.totalDuration Interval.sumLabels
      simp only [hp.not_void, Bool.false_eq_true, if_false, Interval.dutyIdx_bad hdd]
      have hle := hp.lo_le_hi
      cases ws with
      | nil => rw [intRange_cons (by omega)] at h2; cases h2
      | cons w ws =>
        rw [List.mapM_cons, Workshift.worktime_bad (hrange w (by simp)).1 num _ hdd]
        rcases hvd.source with hsrc | hsrc <;> simp [hsrc, Except.map, bind, Except.bind]
    · exact absurd (hd hh.void) hdd

/-- **C27**, second part.  TypeError is raised exactly when the labels are the source and some workshift of the interval has
the duty and a label which is not a number; there is no other failure, and the worktimes on and off duty add up. -/
theorem C27_worktime_outcomes {tb : Timeboard L} (h : tb.Reachable) {v : Interval L} (hv : tb.HasInterval v)
    {s : Option (Schedule L)} (hs : tb.OwnsOpt s) (num : L → Option Rat) :
    (∀ d, d = .on ∨ d = .off ∨ d = .any →
      (v.worktime tb num d s = .error .typeError ∧ tb.worktimeSource = "labels" ∧ ∃ k w, v.Contains tb k ∧
        Workshift.new tb k (some (s.getD v.schedule)) = .ok w ∧ w.HasDuty tb (s.getD v.schedule) d ∧ num w.label = none) ∨
      ((∃ q, v.worktime tb num d s = .ok q) ∧ ¬ (tb.worktimeSource = "labels" ∧ ∃ k w, v.Contains tb k ∧
        Workshift.new tb k (some (s.getD v.schedule)) = .ok w ∧ w.HasDuty tb (s.getD v.schedule) d ∧ num w.label = none))) ∧
    (∀ x y z, v.worktime tb num .on s = .ok x → v.worktime tb num .off s = .ok y → v.worktime tb num .any s = .ok z → x + y = z) := by
  have hvd := h.valid
  have fv := hv.fine hvd
  obtain ⟨ws, h1, h2, h3⟩ := fv.workshifts_spec hvd (sch := none) (by intro x hx; cases hx) (duty := .any) (.inr (.inr rfl))
  have h0 := fv.nonneg
  have hlt := fv.lt
  rw [hvd.dutyPositions_any _ (by omega) (by omega)] at h2
  have hiter : v.iter tb = .ok ws := h1
  have hrange : ∀ w ∈ ws, tb.timeline.label w.loc = .ok w.label ∧ 0 ≤ w.loc ∧ w.loc < tb.timeline.len := by
    intro w hw
    have : w.loc ∈ ws.map (fun w => w.loc) := List.mem_map.2 ⟨w, hw, rfl⟩
    rw [h2, mem_intRange] at this
    exact ⟨(h3 w hw).2, by omega, by omega⟩
  have key : ∀ d, (d = .on ∨ d = .off ∨ d = .any) → v.worktime tb num d s =
      (ws.mapM (fun w : Workshift L => w.worktime tb num d (some (s.getD v.schedule)))).map List.sum := by
    intro d hd
    rw [C27_worktime_is_sum h hv hs num d (fun _ => hd), hiter]
    show (do let xs ← ws.mapM (fun w : Workshift L => w.worktime tb num d (some (s.getD v.schedule))); return xs.sum) = _
    cases ws.mapM (fun w : Workshift L => w.worktime tb num d (some (s.getD v.schedule))) <;> rfl
  have hmap : ∀ (f : Workshift L → Except Err Rat) (l : List (Workshift L)),
      (∀ w ∈ l, ∃ q, f w = .ok q) → ∃ qs, l.mapM f = .ok qs ∧ qs = l.map (fun w => match f w with | .ok q => q | .error _ => 0) := by
    intro f l
    induction l with
    | nil => intro _; exact ⟨[], rfl, rfl⟩
    | cons w l ih =>
      intro hh
      obtain ⟨q, hq⟩ := hh w (by simp)
      obtain ⟨qs, hqs, e⟩ := ih (fun x hx => hh x (by simp [hx]))
      exact ⟨q :: qs, by rw [List.mapM_cons, hq, hqs]; rfl, by simp [hq, e]⟩
  have hmap' : ∀ (f : Workshift L → Except Err Rat) (l : List (Workshift L)) (xs : List Rat), l.mapM f = .ok xs →
      ∀ w ∈ l, ∃ q, f w = .ok q := by
    intro f l
    induction l with
    | nil => intro xs _ w hw; cases hw
    | cons w l ih =>
      intro xs hx w' hw'
      rw [List.mapM_cons] at hx
      cases hf : f w with
      | error e => rw [hf] at hx; cases hx
      | ok q =>
        rw [hf] at hx
        cases hm : l.mapM f with
        | error e => rw [hm] at hx; cases hx
        | ok ys =>
          rcases List.mem_cons.1 hw' with rfl | hw'
          · exact ⟨q, hf⟩
          · exact ih ys hm w' hw'
  have hwt : ∀ d, (d = .on ∨ d = .off ∨ d = .any) → ∀ w ∈ ws,
      w.worktime tb num d (some (s.getD v.schedule)) = .error .typeError ∨ ∃ q, w.worktime tb num d (some (s.getD v.schedule)) = .ok q := by
    intro d hd w hw
    obtain ⟨r1, r2, r3⟩ := hrange w hw
    rw [Workshift.worktime_eq r1 num _ hd]
    split
    · rcases hvd.source with hsrc | hsrc
      · right
        have hdur : w.duration tb = .ok (tb.timeline.bnd (w.loc + 1) - tb.timeline.bnd w.loc) := by
          unfold Workshift.duration; exact hvd.wf.wsDuration_eq r2 r3
        rw [if_neg (by rw [hsrc]; decide), if_pos hsrc, hdur]; exact ⟨_, rfl⟩
      · rw [if_pos hsrc]
        cases num w.label with
        | none => left; rfl
        | some q => right; exact ⟨q, rfl⟩
    · right; exact ⟨0, rfl⟩
  constructor
  · intro d hd
    by_cases hc : (tb.worktimeSource = "labels" ∧ ∃ k w, v.Contains tb k ∧
        Workshift.new tb k (some (s.getD v.schedule)) = .ok w ∧ w.HasDuty tb (s.getD v.schedule) d ∧ num w.label = none)
    · refine .inl ⟨?_, hc⟩
      obtain ⟨hsrc, k, w, hk, hw, hduty, hnum⟩ := hc
      rw [key d hd]
      have hl := Workshift.new_label hw
      have hloc := Workshift.new_loc hw
      have hm := (Workshift.hasDuty_iff (tb := tb) (w := w) (by rw [hloc]; exact hl) (s.getD v.schedule) d).1 hduty
      rw [fv.contains_iff hvd] at hk
      have hkm : k ∈ ws.map (fun w => w.loc) := by rw [h2, mem_intRange]; omega
      obtain ⟨w', hw', hk'⟩ := List.mem_map.1 hkm
      have hl' := (hrange w' hw').1
      rw [hk', hl] at hl'
      simp only [Except.ok.injEq] at hl'
      have hbad : w'.worktime tb num d (some (s.getD v.schedule)) = .error .typeError := by
        rw [Workshift.worktime_eq (hrange w' hw').1 num _ hd, ← hl', hm, if_pos rfl, if_pos hsrc, hnum]
      have : ∀ l : List (Workshift L), (∀ x ∈ l, x ∈ ws) → w' ∈ l → l.mapM (fun w : Workshift L => w.worktime tb num d (some (s.getD v.schedule))) = .error .typeError := by
        intro l
        induction l with
        | nil => intro _ h; cases h
        | cons x l ih =>
          intro hs hx
          rw [List.mapM_cons]
          rcases hwt d hd x (hs x (by simp)) with e | ⟨q, e⟩
          · rw [e]; rfl
          · rw [e]
            rcases List.mem_cons.1 hx with rfl | hx
            · rw [hbad] at e; cases e
            · rw [ih (fun y hy => hs y (by simp [hy])) hx]; rfl
      rw [this ws (fun x hx => hx) hw']; rfl
    · refine .inr ⟨?_, hc⟩
      rw [key d hd]
      obtain ⟨qs, hqs, _⟩ := hmap (fun w => w.worktime tb num d (some (s.getD v.schedule))) ws (by
        intro w hw
        rcases hwt d hd w hw with e | e
        · exfalso
          apply hc
          obtain ⟨r1, r2, r3⟩ := hrange w hw
          rw [Workshift.worktime_eq r1 num _ hd] at e
          split at e
          · rename_i hm
            have hdur : w.duration tb = .ok (tb.timeline.bnd (w.loc + 1) - tb.timeline.bnd w.loc) := by
              unfold Workshift.duration; exact hvd.wf.wsDuration_eq r2 r3
            rcases hvd.source with hsrc | hsrc
            · rw [if_neg (by rw [hsrc]; decide), if_pos hsrc, hdur] at e; cases e
            · rw [if_pos hsrc] at e
              refine ⟨hsrc, w.loc, ?_⟩
              obtain ⟨w', hw', hloc', _, hl', _⟩ := Workshift.exists_of_range hvd (some (s.getD v.schedule)) r2 r3
              rw [r1] at hl'
              simp only [Except.ok.injEq] at hl'
              refine ⟨w', ?_, hw', ?_, ?_⟩
              · rw [fv.contains_iff hvd]
                have : w.loc ∈ ws.map (fun w => w.loc) := List.mem_map.2 ⟨w, hw, rfl⟩
                rw [h2, mem_intRange] at this; omega
              · rw [Workshift.hasDuty_iff (l := w'.label) (by rw [hloc', ← hl']; exact r1), ← hl']; exact hm
              · rw [← hl']
                cases hn : num w.label with
                | none => rfl
                | some q => rw [hn] at e; cases e
          · cases e
        · exact e)
      rw [hqs]; exact ⟨_, rfl⟩
  · intro x y z hx hy hz
    rw [key _ (.inl rfl)] at hx
    rw [key _ (.inr (.inl rfl))] at hy
    rw [key _ (.inr (.inr rfl))] at hz
    have get : ∀ {d q}, (ws.mapM (fun w : Workshift L => w.worktime tb num d (some (s.getD v.schedule)))).map List.sum = .ok q →
        (∀ w ∈ ws, ∃ q, w.worktime tb num d (some (s.getD v.schedule)) = .ok q) ∧
        q = (ws.map (fun w => match w.worktime tb num d (some (s.getD v.schedule)) with | .ok q => q | .error _ => 0)).sum := by
      intro d q hq
      cases hm : ws.mapM (fun w : Workshift L => w.worktime tb num d (some (s.getD v.schedule))) with
      | error e => rw [hm] at hq; cases hq
      | ok xs =>
        have a := hmap' _ _ _ hm
        refine ⟨a, ?_⟩
        obtain ⟨qs, hqs, e⟩ := hmap _ _ a
        rw [hqs] at hq
        simp only [Except.map, Except.ok.injEq] at hq
        rw [← hq, e]
    obtain ⟨ax, ex⟩ := get hx
    obtain ⟨ay, ey⟩ := get hy
    obtain ⟨az, ez⟩ := get hz
    rw [ex, ey, ez]
    apply rat_sum_pointwise
    intro w hw
    obtain ⟨r1, r2, r3⟩ := hrange w hw
    obtain ⟨qx, bx⟩ := ax w hw
    obtain ⟨qy, bby⟩ := ay w hw
    obtain ⟨qz, bz⟩ := az w hw
    rw [bx, bby, bz]
    simp only
    rw [Workshift.worktime_eq r1 num _ (.inl rfl)] at bx
    rw [Workshift.worktime_eq r1 num _ (.inr (.inl rfl))] at bby
    rw [Workshift.worktime_eq r1 num _ (.inr (.inr rfl))] at bz
    simp only [dutyMatches, if_true] at bx bby bz
    cases hsel : (s.getD v.schedule).selector w.label with
    | true =>
      simp only [hsel, if_true, Bool.not_true, Bool.false_eq_true, if_false, Except.ok.injEq] at bx bby
      rw [bz] at bx
      simp only [Except.ok.injEq] at bx
      rw [← bby, bx, Rat.add_zero]
    | false =>
      simp only [hsel, if_true, Bool.not_false, Bool.false_eq_true, if_false, Except.ok.injEq] at bx bby
      rw [bz] at bby
      simp only [Except.ok.injEq] at bby
      rw [← bx, bby, Rat.zero_add]

/-- Labels of the example as numbers; negative ones are not. -/
def exNum (l : Int) : Option Rat := if l < 0 then none else some l
def exWork (tb : Timeboard Int) (b : Int × Int) (d : Duty) : Except Err Rat := do
  let v ← Interval.new tb b
  v.worktime tb exNum d
example : exWork shifts (1, 3) .on = .ok 16 ∧ exWork shifts (1, 3) .off = .ok 0 ∧ exWork shifts (1, 3) .any = .ok 16 := by decide +kernel
example : exWork week (0, 9) .on = .ok 7 ∧ exWork week (0, 9) .off = .ok 3 ∧ exWork week (0, 9) .any = .ok 10 ∧
    exWork week (0, 9) .same = .error .valueError := by decide +kernel
/-- With negative labels on the timeboard the sum over all duties raises TypeError. -/
example : (do let v ← Interval.new shifts (0, 5); v.worktime shifts (fun l => if l = 0 then none else some l) .off) = .error .typeError ∧
    (do let v ← Interval.new shifts (0, 5); v.worktime shifts (fun l => if l = 0 then none else some l) .on) = .ok 32 := by decide +kernel

end TB
