import Verif.Spec.Selector
import Verif.Props.Schedules
import Verif.Examples.Boards
/-! Property C94: selectors of any kind. -/
namespace TB
open TB.Ex
variable {L V ε : Type}

theorem applyEach_ok {α β : Type} {f : α → Except ε β} : ∀ {xs : List α} {ys : List β}, applyEach f xs = .ok ys →
    (∀ x ∈ xs, ∃ y, f x = .ok y) ∧ ys.map Except.ok = xs.map f := by
  intro xs
  induction xs with
  | nil => intro ys h; cases h; exact ⟨by simp, rfl⟩
  | cons x xs ih =>
    intro ys h
    simp only [applyEach] at h
    cases hx : f x with
    | error e => rw [hx] at h; cases h
    | ok y =>
      rw [hx] at h
      cases hr : applyEach f xs with
      | error e => rw [hr] at h; cases h
      | ok zs =>
        rw [hr] at h; cases h
        obtain ⟨h1, h2⟩ := ih hr
        refine ⟨?_, by simp [h2, hx]⟩
        intro a ha
        rcases List.mem_cons.1 ha with rfl | ha
        · exact ⟨y, hx⟩
        · exact h1 a ha

theorem applyEach_exists {α β : Type} {f : α → Except ε β} : ∀ {xs : List α}, (∀ x ∈ xs, ∃ y, f x = .ok y) → ∃ ys, applyEach f xs = .ok ys := by
  intro xs
  induction xs with
  | nil => intro _; exact ⟨[], rfl⟩
  | cons x xs ih =>
    intro h
    obtain ⟨y, hy⟩ := h x (by simp)
    obtain ⟨ys, hys⟩ := ih (fun a ha => h a (by simp [ha]))
    exact ⟨y :: ys, by simp [applyEach, hy, hys]⟩

theorem applyEach_error {α β : Type} {f : α → Except ε β} : ∀ {xs : List α} {e : ε}, applyEach f xs = .error e ↔ RaisesFirst f xs e := by
  intro xs
  induction xs with
  | nil => intro e; constructor
           · intro h; cases h
           · rintro ⟨pre, l, post, h, _⟩; simp at h
  | cons x xs ih =>
    intro e
    constructor
    · intro h
      simp only [applyEach] at h
      cases hx : f x with
      | error e' => rw [hx] at h; cases h; exact ⟨[], x, xs, rfl, by simp, hx⟩
      | ok y =>
        rw [hx] at h
        cases hr : applyEach f xs with
        | ok zs => rw [hr] at h; cases h
        | error e' =>
          rw [hr] at h; cases h
          obtain ⟨pre, l, post, rfl, h2, h3⟩ := ih.1 hr
          refine ⟨x :: pre, l, post, rfl, ?_, h3⟩
          intro m hm
          rcases List.mem_cons.1 hm with rfl | hm
          · exact ⟨y, hx⟩
          · exact h2 m hm
    · rintro ⟨pre, l, post, h1, h2, h3⟩
      cases pre with
      | nil => simp only [List.nil_append, List.cons.injEq] at h1; obtain ⟨rfl, rfl⟩ := h1; simp [applyEach, h3]
      | cons p pre =>
        simp only [List.cons_append, List.cons.injEq] at h1
        obtain ⟨rfl, rfl⟩ := h1
        obtain ⟨y, hy⟩ := h2 x (by simp)
        have := (ih (e := e)).2 ⟨pre, l, post, rfl, fun m hm => h2 m (by simp [hm]), h3⟩
        simp [applyEach, hy, this]

theorem nonzeroBy_map {α β : Type} (g : α → β) (p : β → Bool) : ∀ (xs : List α) (i : Int), nonzeroBy p (xs.map g) i = nonzeroBy (fun x => p (g x)) xs i := by
  intro xs
  induction xs with
  | nil => intro i; rfl
  | cons x xs ih => intro i; simp only [List.map_cons, nonzeroBy, ih]

theorem applyEach_decides {truth : V → Except ε Bool} {f : L → Except ε V} {b : L → Bool} : ∀ {ls : List L} {vs : List V},
    Decides truth f ls b → applyEach f ls = .ok vs → applyEach truth vs = .ok (ls.map b) := by
  intro ls
  induction ls with
  | nil => intro vs _ h; cases h; rfl
  | cons l ls ih =>
    intro vs hd h
    obtain ⟨v, hv, ht⟩ := hd l (by simp)
    simp only [applyEach, hv] at h
    cases hr : applyEach f ls with
    | error e => rw [hr] at h; cases h
    | ok ws =>
      rw [hr] at h; cases h
      have := ih (fun m hm => hd m (by simp [hm])) hr
      simp [applyEach, ht, this]

/-- A schedule is made exactly when the selector decides on all labels of the timeline; it then has the indices of a boolean selector with
the same decisions.  Otherwise the exception is the first one raised by the selector or, if it raises none, the first one of the
answers without a truth value. -/
theorem C94_schedule (truth : V → Except ε Bool) (tl : Timeline L) (name : String) (f : L → Except ε V) :
    ((∃ s, AnySchedule.new truth tl name f = .ok s) ↔ ∃ b, Decides truth f tl.labels b) ∧
    (∀ s b, AnySchedule.new truth tl name f = .ok s → Decides truth f tl.labels b →
      s.selector = f ∧ SameSchedule truth tl s (Schedule.new tl name b)) ∧
    (∀ x, AnySchedule.new truth tl name f = .error x ↔
      (RaisesFirst f tl.labels x ∨ ∃ vs, tl.labels.map f = vs.map .ok ∧ RaisesFirst truth vs x)) := by
  have made : ∀ b, Decides truth f tl.labels b → AnySchedule.new truth tl name f = .ok
      { name := name, selector := f, onIdx := nonzeroBy b tl.labels 0, offIdx := nonzeroBy (fun l => !b l) tl.labels 0 } := by
    intro b hb
    obtain ⟨vs, hvs⟩ := applyEach_exists (f := f) (xs := tl.labels) (fun l hl => (hb l hl).imp (fun v hv => hv.1))
    have hbs := applyEach_decides hb hvs
    unfold AnySchedule.new
    rw [hvs]
    simp only [hbs, nonzeroBy_map]
  refine ⟨⟨?_, ?_⟩, ?_, ?_⟩
  · rintro ⟨s, hs⟩
    unfold AnySchedule.new at hs
    cases h1 : applyEach f tl.labels with
    | error e => rw [h1] at hs; cases hs
    | ok vs =>
      rw [h1] at hs
      simp only at hs
      cases h2 : applyEach truth vs with
      | error e => rw [h2] at hs; cases hs
      | ok bs =>
        obtain ⟨a1, a2⟩ := applyEach_ok h1
        obtain ⟨b1, b2⟩ := applyEach_ok h2
        refine ⟨fun l => match f l with | .ok v => (match truth v with | .ok b => b | .error _ => false) | .error _ => false, ?_⟩
        intro l hl
        obtain ⟨v, hv⟩ := a1 l hl
        have hm : v ∈ vs := by
          have : f l ∈ tl.labels.map f := List.mem_map.2 ⟨l, hl, rfl⟩
          rw [← a2, hv, List.mem_map] at this
          obtain ⟨w, hw, he⟩ := this
          cases he; exact hw
        obtain ⟨b, hb⟩ := b1 v hm
        exact ⟨v, hv, by simp only [hv, hb]⟩
  · rintro ⟨b, hb⟩
    exact ⟨_, made b hb⟩
  · intro s b hs hb
    rw [made b hb] at hs
    cases hs
    exact ⟨rfl, rfl, rfl, rfl, hb⟩
  · intro x
    unfold AnySchedule.new
    cases h1 : applyEach f tl.labels with
    | error e =>
      simp only
      constructor
      · intro h; cases h; exact .inl (applyEach_error.1 h1)
      · rintro (h | ⟨vs, h, _⟩)
        · rw [applyEach_error.2 h] at h1; cases h1; rfl
        · obtain ⟨ys, hys⟩ := applyEach_exists (f := f) (xs := tl.labels) (fun l hl => by
            have : f l ∈ tl.labels.map f := List.mem_map.2 ⟨l, hl, rfl⟩
            rw [h, List.mem_map] at this
            obtain ⟨w, _, he⟩ := this
            exact ⟨w, he.symm⟩)
          rw [hys] at h1; cases h1
    | ok vs =>
      obtain ⟨a1, a2⟩ := applyEach_ok h1
      simp only
      have iff2 : applyEach truth vs = .error x ↔ (RaisesFirst f tl.labels x ∨ ∃ vs, tl.labels.map f = vs.map .ok ∧ RaisesFirst truth vs x) := by
        rw [applyEach_error]
        constructor
        · intro h; exact .inr ⟨vs, a2.symm, h⟩
        · rintro (h | ⟨ws, h, hw⟩)
          · rw [applyEach_error.2 h] at h1; cases h1
          · rw [← a2] at h
            have : vs = ws := by
              have inj : ∀ (xs ys : List V), xs.map (Except.ok (ε := ε)) = ys.map Except.ok → xs = ys := by
                intro xs
                induction xs with
                | nil => intro ys h; cases ys with
                  | nil => rfl
                  | cons y ys => cases h
                | cons x xs ih => intro ys h; cases ys with
                  | nil => cases h
                  | cons y ys =>
                    simp only [List.map_cons, List.cons.injEq, Except.ok.injEq] at h
                    rw [h.1, ih ys h.2]
              exact inj _ _ h
            subst this; exact hw
      cases h2 : applyEach truth vs with
      | error e =>
        rw [h2] at iff2
        rw [← iff2]
        constructor <;> (intro h; cases h; rfl)
      | ok bs =>
        rw [h2] at iff2
        rw [← iff2]
        constructor <;> (intro h; cases h)

/-- Constructing a timeboard: the exceptions of the library come first and are the same whatever the selector; then the default schedule is made. -/
theorem C94_constructor (truth : V → Except ε Bool) (a : Args L) (f : L → Except ε V) (heap : Heap L) :
    (∀ e, AnyTimeboard.new truth a f heap = .error (.own e) ↔ Timeboard.new a heap = .error e) ∧
    (∀ y h, Timeboard.new a heap = .ok (y, h) →
      (∀ x, AnyTimeboard.new truth a f heap = .error (.foreign x) ↔ AnySchedule.new truth y.timeline y.defaultSchedule.name f = .error x) ∧
      (∀ x h', AnyTimeboard.new truth a f heap = .ok (x, h') → h' = h ∧ AnySchedule.new truth y.timeline y.defaultSchedule.name f = .ok x.defaultSchedule) ∧
      (∀ b, Decides truth f y.timeline.labels b → ∃ x z, AnyTimeboard.new truth a f heap = .ok (x, h) ∧
        Timeboard.new { a with selector := b } heap = .ok (z, h) ∧ z.timeline = y.timeline ∧ SameTimeboard truth x z)) := by
  unfold AnyTimeboard.new Timeboard.new
  simp only
  cases h1 : makeOrganizer a.layout with
  | error e => simp
  | ok org =>
    simp only
    split
    · simp
    · cases h2 : Frame.new a.freq a.start a.stop with
      | error e => simp
      | ok frame =>
        simp only
        cases h3 : Timeline.new frame (some org) a.refEnd a.defaultLabel heap with
        | error e => simp
        | ok r =>
          obtain ⟨tl0, heap'⟩ := r
          simp only
          cases h4 : tl0.amend a.amendments with
          | error e => simp
          | ok tl =>
            simp only
            constructor
            · intro e
              cases h5 : AnySchedule.new truth tl (a.defaultName.getD "on_duty") f with
              | error x => simp
              | ok s => simp
            · intro y h hy
              simp only [Except.ok.injEq, Prod.mk.injEq] at hy
              obtain ⟨rfl, rfl⟩ := hy
              simp only [Schedule.new]
              obtain ⟨c1, c2, _⟩ := C94_schedule truth tl (a.defaultName.getD "on_duty") f
              refine ⟨?_, ?_, ?_⟩
              · intro x
                cases h5 : AnySchedule.new truth tl (a.defaultName.getD "on_duty") f with
                | error x => simp
                | ok s => simp
              · intro x h' hx
                cases h5 : AnySchedule.new truth tl (a.defaultName.getD "on_duty") f with
                | error x => rw [h5] at hx; cases hx
                | ok s => rw [h5] at hx; cases hx; exact ⟨rfl, rfl⟩
              · intro b hb
                obtain ⟨s, hs⟩ := c1.2 ⟨b, hb⟩
                have := (c2 s b hs hb).2
                rw [hs]
                exact ⟨_, _, rfl, rfl, rfl, rfl, rfl, this, rfl, this, trivial⟩

theorem SameSchedules.any {truth : V → Except ε Bool} {tl : Timeline L} {name : String} : ∀ {ss : List (String × AnySchedule L V ε)} {ts : List (String × Schedule L)},
    SameSchedules truth tl ss ts → ss.any (fun p => p.1 == name) = ts.any (fun p => p.1 == name) := by
  intro ss
  induction ss with
  | nil => intro ts h; cases ts with
    | nil => rfl
    | cons t ts => exact h.elim
  | cons s ss ih => intro ts h; cases ts with
    | nil => exact h.elim
    | cons t ts =>
      obtain ⟨h1, _, h2⟩ := h
      simp only [List.any_cons, h1, ih h2]

theorem SameSchedules.append {truth : V → Except ε Bool} {tl : Timeline L} {n : String} {s : AnySchedule L V ε} {t : Schedule L} (hst : SameSchedule truth tl s t) :
    ∀ {ss : List (String × AnySchedule L V ε)} {ts : List (String × Schedule L)},
    SameSchedules truth tl ss ts → SameSchedules truth tl (ss ++ [(n, s)]) (ts ++ [(n, t)]) := by
  intro ss
  induction ss with
  | nil => intro ts h; cases ts with
    | nil => exact ⟨rfl, hst, trivial⟩
    | cons t ts => exact h.elim
  | cons s ss ih => intro ts h; cases ts with
    | nil => exact h.elim
    | cons t ts =>
      obtain ⟨h1, h2, h3⟩ := h
      exact ⟨h1, h2, ih h3⟩

/-- `add_schedule`: a name already taken is KeyError and the selector is not called; an exception from the selector leaves the timeboard as it was; a selector which decides
adds the same schedule as a boolean one with the same decisions. -/
theorem C94_add_schedule {truth : V → Except ε Bool} {x : AnyTimeboard L V ε} {y : Timeboard L} (hxy : SameTimeboard truth x y) (name : String) (f : L → Except ε V) :
    (∀ e, (x.addSchedule truth name f).2 = .error e → (x.addSchedule truth name f).1 = x) ∧
    ((∃ p ∈ y.schedules, p.1 = name) → (x.addSchedule truth name f).2 = .error (.own .keyError)) ∧
    ((¬ ∃ p ∈ y.schedules, p.1 = name) →
      (∀ e, (x.addSchedule truth name f).2 ≠ .error (.own e)) ∧
      (∀ z, (x.addSchedule truth name f).2 = .error (.foreign z) ↔ AnySchedule.new truth y.timeline name f = .error z) ∧
      (∀ b, Decides truth f y.timeline.labels b → ∃ s t y', (x.addSchedule truth name f).2 = .ok s ∧ y.addSchedule name b = .ok (t, y') ∧
        s.selector = f ∧ SameSchedule truth y.timeline s t ∧ SameTimeboard truth (x.addSchedule truth name f).1 y')) := by
  obtain ⟨e1, e2, e3, e4⟩ := hxy
  have hany := e4.any (name := name)
  have iff1 : (y.schedules.any (fun p => p.1 == name)) = true ↔ ∃ p ∈ y.schedules, p.1 = name := by
    simp [List.any_eq_true]
  unfold AnyTimeboard.addSchedule Timeboard.addSchedule
  rw [hany, e1]
  by_cases hc : (y.schedules.any (fun p => p.1 == name)) = true
  · simp only [if_pos hc]
    exact ⟨fun _ _ => trivial, fun _ => trivial, fun h => (h (iff1.1 hc)).elim⟩
  · simp only [if_neg hc]
    obtain ⟨c1, c2, _⟩ := C94_schedule truth y.timeline name f
    refine ⟨?_, fun h => (hc (iff1.2 h)).elim, fun _ => ⟨?_, ?_, ?_⟩⟩
    · intro e he
      cases h5 : AnySchedule.new truth y.timeline name f with
      | error z => rfl
      | ok s => rw [h5] at he; cases he
    · intro e he
      cases h5 : AnySchedule.new truth y.timeline name f with
      | error z => rw [h5] at he; cases he
      | ok s => rw [h5] at he; cases he
    · intro z
      cases h5 : AnySchedule.new truth y.timeline name f with
      | error z => simp
      | ok s => simp
    · intro b hb
      obtain ⟨s, hs⟩ := c1.2 ⟨b, hb⟩
      obtain ⟨d1, d2⟩ := c2 s b hs hb
      rw [hs]
      refine ⟨s, _, _, rfl, rfl, d1, d2, rfl, e2, e3, ?_⟩
      exact SameSchedules.append d2 e4

theorem SameGiven.getD {truth : V → Except ε Bool} {tl : Timeline L} {o : Option (AnySchedule L V ε)} {p : Option (Schedule L)} (h : SameGiven truth tl o p)
    {s : AnySchedule L V ε} {t : Schedule L} (hst : SameSchedule truth tl s t) : SameSchedule truth tl (o.getD s) (p.getD t) := by
  cases o with
  | none => cases p with
    | none => exact hst
    | some t => exact h.elim
  | some s => cases p with
    | none => exact h.elim
    | some t => exact h

/-- The duty of a workshift under `s`: the label exists and the selector's answer is that of `t`, or the position is not on the timeline. -/
theorem duty_cases {truth : V → Except ε Bool} {tl : Timeline L} {s : AnySchedule L V ε} {t : Schedule L} (h : SameSchedule truth tl s t) (k : Int) :
    (∃ v b, s.isOnDuty tl k = .ok v ∧ truth v = .ok b ∧ t.isOnDuty tl k = .ok b ∧ s.isOffDuty truth tl k = .ok (!b) ∧ t.isOffDuty tl k = .ok (!b)) ∨
    (∃ e, s.isOnDuty tl k = .error (.own e) ∧ t.isOnDuty tl k = .error e ∧ s.isOffDuty truth tl k = .error (.own e) ∧ t.isOffDuty tl k = .error e) := by
  unfold AnySchedule.isOffDuty AnySchedule.isOnDuty Schedule.isOffDuty Schedule.isOnDuty
  cases hl : tl.label k with
  | error e => right; exact ⟨e, rfl, rfl, rfl, rfl⟩
  | ok l =>
    obtain ⟨v, hv, ht⟩ := h.2.2.2 l (Timeline.label_mem hl)
    left
    refine ⟨v, t.selector l, ?_, ht, rfl, ?_, rfl⟩
    · simp [hv, foreignErr]
    · simp [hv, foreignErr, ht]

theorem dutyIndex_cases {truth : V → Except ε Bool} {x : AnyTimeboard L V ε} {y : Timeboard L} (hxy : SameTimeboard truth x y) {w : AnyWorkshift L V ε} {u : Workshift L}
    (hw : SameWorkshift truth y.timeline w u) {s : AnySchedule L V ε} {t : Schedule L} (h : SameSchedule truth y.timeline s t) (d : Duty) :
    (∃ idx, w.dutyIndex truth x d s = .ok idx ∧ u.dutyIndex y d t = .ok idx) ∨
    (∃ e, w.dutyIndex truth x d s = .error (.own e) ∧ u.dutyIndex y d t = .error e) := by
  unfold AnyWorkshift.dutyIndex Workshift.dutyIndex AnyWorkshift.isOnDuty AnyWorkshift.isOffDuty Workshift.isOnDuty Workshift.isOffDuty
  simp only [Option.getD_some]
  rw [hxy.1, hw.1]
  rcases duty_cases h u.loc with ⟨v, b, h1, h2, h3, h4, h5⟩ | ⟨e, h1, h3, h4, h5⟩
  · rw [h1, h3, h4, h5, ← h.2.1, ← h.2.2.1]
    cases d <;> cases b <;> simp [bind, Except.bind, pure, Except.pure, foreignErr, h2, throw, throwThe, MonadExceptOf.throw]
  · right
    refine ⟨e, ?_, ?_⟩
    · rw [h1]; rfl
    · rw [h3]; rfl

theorem anyWorkshiftAt_agree {truth : V → Except ε Bool} {x : AnyTimeboard L V ε} {y : Timeboard L} (hxy : SameTimeboard truth x y)
    {s : AnySchedule L V ε} {t : Schedule L} (h : SameSchedule truth y.timeline s t) (idx : List Int) (i : Int) :
    Agree (SameWorkshift truth y.timeline) (anyWorkshiftAt x idx i s) (workshiftAt y idx i t) := by
  unfold anyWorkshiftAt workshiftAt
  cases pyGet? idx i with
  | none => rfl
  | some p =>
    simp only
    unfold AnyWorkshift.new Workshift.new
    rw [hxy.1]
    cases y.timeline.label p with
    | error e => rfl
    | ok l => exact ⟨rfl, rfl, h⟩

/-- With selectors which decide, everything about workshifts is as with boolean selectors, no foreign exception is raised any more; `is_on_duty` returns the
answer of the selector as it is. -/
theorem C94_workshifts {truth : V → Except ε Bool} {x : AnyTimeboard L V ε} {y : Timeboard L} (hxy : SameTimeboard truth x y)
    {o : Option (AnySchedule L V ε)} {p : Option (Schedule L)} (ho : SameGiven truth y.timeline o p) :
    (∀ k, Agree (SameWorkshift truth y.timeline) (AnyWorkshift.new x k o) (Workshift.new y k p)) ∧
    (∀ w u, SameWorkshift truth y.timeline w u →
      Agree (fun v b => truth v = .ok b) (w.isOnDuty x o) (u.isOnDuty y p) ∧
      (∀ l, y.timeline.label u.loc = .ok l → ∃ v, w.isOnDuty x o = .ok v ∧ (o.getD w.schedule).selector l = .ok v) ∧
      Agree (fun v b => v = b) (w.isOffDuty truth x o) (u.isOffDuty y p) ∧
      ∀ d, (∀ n, Agree (SameWorkshift truth y.timeline) (w.rollforward truth x n d o) (u.rollforward y n d p) ∧
        Agree (SameWorkshift truth y.timeline) (w.rollback truth x n d o) (u.rollback y n d p)) ∧
        ∀ num, Agree (fun a b => a = b) (w.worktime truth x num d o) (u.worktime y num d p)) := by
  constructor
  · intro k
    unfold AnyWorkshift.new Workshift.new
    rw [hxy.1]
    cases y.timeline.label k with
    | error e => rfl
    | ok l => exact ⟨rfl, rfl, ho.getD hxy.2.2.1⟩
  · intro w u hw
    have hs := ho.getD hw.2.2
    refine ⟨?_, ?_, ?_, ?_⟩
    · unfold AnyWorkshift.isOnDuty Workshift.isOnDuty
      rw [hxy.1, hw.1]
      rcases duty_cases hs u.loc with ⟨v, b, h1, h2, h3, h4, h5⟩ | ⟨e, h1, h3, h4, h5⟩
      · rw [h1, h3]; exact h2
      · rw [h1, h3]; rfl
    · intro l hl
      unfold AnyWorkshift.isOnDuty AnySchedule.isOnDuty
      rw [hxy.1, hw.1, hl]
      obtain ⟨v, hv, _⟩ := hs.2.2.2 l (Timeline.label_mem hl)
      exact ⟨v, by simp [hv, foreignErr], hv⟩
    · unfold AnyWorkshift.isOffDuty Workshift.isOffDuty
      rw [hxy.1, hw.1]
      rcases duty_cases hs u.loc with ⟨v, b, h1, h2, h3, h4, h5⟩ | ⟨e, h1, h3, h4, h5⟩
      · rw [h4, h5]; rfl
      · rw [h4, h5]; rfl
    · intro d
      refine ⟨fun n => ⟨?_, ?_⟩, ?_⟩
      · unfold AnyWorkshift.rollforward Workshift.rollforward
        rcases dutyIndex_cases hxy hw hs d with ⟨idx, h1, h2⟩ | ⟨e, h1, h2⟩
        · simp only [h1, h2, bind, Except.bind, hw.1]
          split
          · rfl
          · exact anyWorkshiftAt_agree hxy hs _ _
        · simp only [h1, h2, bind, Except.bind]; rfl
      · unfold AnyWorkshift.rollback Workshift.rollback
        rcases dutyIndex_cases hxy hw hs d with ⟨idx, h1, h2⟩ | ⟨e, h1, h2⟩
        · simp only [h1, h2, bind, Except.bind, hw.1]
          split
          · rfl
          · exact anyWorkshiftAt_agree hxy hs _ _
        · simp only [h1, h2, bind, Except.bind]; rfl
      · intro num
        unfold AnyWorkshift.worktime Workshift.worktime AnyWorkshift.isOnDuty AnyWorkshift.isOffDuty Workshift.isOnDuty Workshift.isOffDuty
        simp only [Option.getD_some]
        rw [hxy.1, hxy.2.1, hw.1, hw.2.1]
        unfold Workshift.duration
        have fin : ∀ flag : Bool, Agree (ε := ε) (fun a b : Rat => a = b)
            (if flag = true then
              if y.worktimeSource = "labels" then
                match num u.label with
                | none => throw (.own .typeError)
                | some q => pure q
              else if y.worktimeSource = "duration" then do
                let d ← ownErr (y.timeline.wsDuration u.loc)
                pure (d : Rat)
              else throw (.own .runtimeError)
            else pure 0)
            (if flag = true then
              if y.worktimeSource = "labels" then
                match num u.label with
                | none => throw .typeError
                | some q => pure q
              else if y.worktimeSource = "duration" then do
                let d ← y.timeline.wsDuration u.loc
                pure (d : Rat)
              else throw .runtimeError
            else pure 0) := by
          intro flag
          cases flag
          · rfl
          · simp only [if_true]
            split
            · cases num u.label <;> rfl
            · split
              · cases y.timeline.wsDuration u.loc <;> rfl
              · rfl
        rcases duty_cases hs u.loc with ⟨v, b, h1, h2, h3, h4, h5⟩ | ⟨e, h1, h3, h4, h5⟩
        · rw [h1, h3, h4, h5]
          simp only [bind, Except.bind, pure, Except.pure]
          cases d
          · simp only [h2, foreignErr]; exact fin b
          · exact fin (!b)
          · exact fin true
          all_goals rfl
        · rw [h1, h3]; rfl

/-- The columns of the schedules in the data frame: the answers of the selectors, whose truth values are those of the boolean selectors. -/
theorem C94_dataframe {truth : V → Except ε Bool} {x : AnyTimeboard L V ε} {y : Timeboard L} (hxy : SameTimeboard truth x y) {labels : List L}
    (hl : ∀ l ∈ labels, l ∈ y.timeline.labels) :
    ∃ cols, dutyColumns labels x.schedules = .ok cols ∧
      cols.map (fun c => (c.1, c.2.map truth)) = y.schedules.map (fun p => (p.1, labels.map (fun l => .ok (p.2.selector l)))) ∧
      cols.map (fun c => (c.1, c.2.map .ok)) = x.schedules.map (fun p => (p.1, labels.map p.2.selector)) := by
  have h := hxy.2.2.2
  generalize x.schedules = ss at *
  generalize y.schedules = ts at *
  induction ss generalizing ts with
  | nil => cases ts with
    | nil => exact ⟨[], rfl, rfl, rfl⟩
    | cons t ts => exact h.elim
  | cons s ss ih => cases ts with
    | nil => exact h.elim
    | cons t ts =>
      obtain ⟨n, s⟩ := s
      obtain ⟨m, t⟩ := t
      obtain ⟨h1, h2, h3⟩ := h
      obtain ⟨cols, c1, c2, c3⟩ := ih ts h3
      obtain ⟨vs, hvs⟩ := applyEach_exists (f := s.selector) (xs := labels) (fun l hl' => (h2.2.2.2 l (hl l hl')).imp (fun v hv => hv.1))
      have hd : Decides truth s.selector labels t.selector := fun l hl' => h2.2.2.2 l (hl l hl')
      have ht := applyEach_decides hd hvs
      have a2 := (applyEach_ok hvs).2
      have b2 := (applyEach_ok ht).2
      refine ⟨(n, vs) :: cols, by simp [dutyColumns, hvs, c1], ?_, ?_⟩
      · simp only [List.map_cons, c2, h1, ← b2, List.map_map]; rfl
      · simp only [List.map_cons, c3, a2]

/-! Examples on the standard week: a selector which returns the label itself, one which fails on the label of days off, one whose answers have no truth value. -/

/-- The truth value of a number; 99 stands for an object without a truth value. -/
def exTruth (v : Int) : Except String Bool := if v = 99 then .error "ambiguous" else .ok (v ≠ 0)
/-- Returns the label. -/
def exItself (l : Int) : Except String Int := .ok l
/-- Fails on label 0. -/
def exFails (l : Int) : Except String Int := if l = 0 then .error "zero" else .ok l

example : Decides exTruth exItself week.timeline.labels (fun l => decide (l ≠ 0)) := by
  have h : ∀ l ∈ week.timeline.labels, l ≠ 99 := by decide +kernel
  intro l hl
  exact ⟨l, rfl, by simp [exTruth, h l hl]⟩
example : RaisesFirst exFails week.timeline.labels "zero" := applyEach_error.1 (by decide +kernel)
example : (AnySchedule.new exTruth week.timeline "x" exItself).toOption.map (fun s => s.offIdx.take 3) = some [0, 1, 6] ∧
    (match AnySchedule.new exTruth week.timeline "x" exFails with | .ok _ => none | .error e => some e) = some "zero" ∧
    (match AnySchedule.new exTruth week.timeline "x" (fun _ => .ok 99) with | .ok _ => none | .error e => some e) = some "ambiguous" := by decide +kernel

end TB
