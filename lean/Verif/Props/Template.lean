import Verif.Model.Template
import Verif.Props.Calendars
import Verif.Props.Construct
import Verif.Props.Layout
/-! Calendars made from the template `CalendarBase`. -/
namespace TB
open TB.Ex
variable {L : Type}

/-- The bounds are within the supported range, where given. -/
def Template.Supports (c : Template L) (customStart customEnd : Option Time) : Prop :=
  ∀ t, customStart = some t ∨ customEnd = some t → c.params.start ≤ t ∧ t ≤ c.params.stop

theorem Template.getBounds_ok {c : Template L} {customStart customEnd : Option Time} (h : c.Supports customStart customEnd) :
    c.getBounds customStart customEnd = .ok (customStart.getD c.params.start, customEnd.getD c.params.stop) := by
  unfold Template.getBounds Template.checkTime
  cases customStart with
  | none =>
    cases customEnd with
    | none => rfl
    | some t =>
      have := h t (.inr rfl)
      simp [this, Bind.bind, Except.bind, pure, Except.pure]
  | some u =>
    have hu := h u (.inl rfl)
    cases customEnd with
    | none => simp [hu, Bind.bind, Except.bind, pure, Except.pure]
    | some t =>
      have := h t (.inr rfl)
      simp [hu, this, Bind.bind, Except.bind, pure, Except.pure]

theorem Template.getBounds_error {c : Template L} {customStart customEnd : Option Time} (h : ¬ c.Supports customStart customEnd) :
    c.getBounds customStart customEnd = .error .outOfBounds := by
  unfold Template.getBounds Template.checkTime
  cases customStart with
  | none =>
    cases customEnd with
    | none => exact absurd (by rintro t (h | h) <;> cases h) h
    | some t =>
      by_cases ht : c.params.start ≤ t ∧ t ≤ c.params.stop
      · exact absurd (by rintro t (h | h) <;> cases h; exact ht) h
      · simp [ht, Bind.bind, Except.bind, pure, Except.pure]
  | some u =>
    by_cases hu : c.params.start ≤ u ∧ u ≤ c.params.stop
    · cases customEnd with
      | none => exact absurd (by rintro t (h | h) <;> cases h; exact hu) h
      | some t =>
        by_cases ht : c.params.start ≤ t ∧ t ≤ c.params.stop
        · exact absurd (by rintro t (h | h) <;> cases h <;> assumption) h
        · simp [hu, ht, Bind.bind, Except.bind, pure, Except.pure]
    · simp [hu, Bind.bind, Except.bind]

/-- The amendments which are to be applied: none, only the custom ones, or those returned by the overridden method. -/
def Template.effective (c : Template L) (customStart customEnd : Option Time) (doNotAmend onlyCustom : Bool)
    (custom : Option (List (Time × L))) : Except Err (List (Time × L)) :=
  if doNotAmend then .ok []
  else if onlyCustom then .ok (custom.getD [])
  else c.amend (customStart.getD c.params.start) (customEnd.getD c.params.stop) custom

theorem Template.new_supported {c : Template L} {customStart customEnd : Option Time} (h : c.Supports customStart customEnd)
    (doNotAmend onlyCustom : Bool) (custom : Option (List (Time × L))) (heap : Heap L) :
    c.new customStart customEnd doNotAmend onlyCustom custom heap =
      (c.effective customStart customEnd doNotAmend onlyCustom custom).bind (fun am =>
        Timeboard.new { c.params with
          start := customStart.getD c.params.start, stop := customEnd.getD c.params.stop, amendments := am } heap) := by
  unfold Template.new Template.effective
  rw [Template.getBounds_ok h]
  cases doNotAmend <;> cases onlyCustom <;> simp [Bind.bind, Except.bind, pure, Except.pure]

/-- **C78.** For any subclass of the template: a custom bound outside the supported range is refused with OutOfBoundsError;
an exception raised by the subclass's `amendments` is passed on; otherwise the calendar is the timeboard with the
subclass's parameters over the chosen range, where a workshift has the label of the amendment which falls into it, if there
is one, and the label given by the layout if not.  The amendments are: none with `do_not_amend`, just the custom ones with
`only_custom_amendments`, otherwise those returned by `amendments` for the chosen range. -/
theorem C78_template (c : Template L) (customStart customEnd : Option Time) (doNotAmend onlyCustom : Bool)
    (custom : Option (List (Time × L))) (heap : Heap L) :
    (¬ c.Supports customStart customEnd → c.new customStart customEnd doNotAmend onlyCustom custom heap = .error .outOfBounds) ∧
    (c.Supports customStart customEnd → ∀ e, c.effective customStart customEnd doNotAmend onlyCustom custom = .error e →
      c.new customStart customEnd doNotAmend onlyCustom custom heap = .error e) ∧
    (∀ tb heap', c.new customStart customEnd doNotAmend onlyCustom custom heap = .ok (tb, heap') →
      ∃ am tb0, c.effective customStart customEnd doNotAmend onlyCustom custom = .ok am ∧
        Timeboard.new { c.params with
          start := customStart.getD c.params.start, stop := customEnd.getD c.params.stop, amendments := [] } heap = .ok (tb0, heap') ∧
        tb.startTime = tb0.startTime ∧ tb.endTime = tb0.endTime ∧ tb.timeline.len = tb0.timeline.len ∧
        ∀ k, 0 ≤ k → k < tb.timeline.len → ∃ w w0, Workshift.new tb k = .ok w ∧ Workshift.new tb0 k = .ok w0 ∧
          w.startTime tb = w0.startTime tb0 ∧ w.endTime tb = w0.endTime tb0 ∧
          (∀ t v, (t, v) ∈ am → tb.At t k → w.label = v) ∧
          ((∀ t v, (t, v) ∈ am → ¬ tb.At t k) → w.label = w0.label)) := by
  refine ⟨?_, ?_, ?_⟩
  · intro h
    unfold Template.new
    rw [Template.getBounds_error h]; rfl
  · intro h e he
    rw [Template.new_supported h, he]; rfl
  · intro tb heap' h
    by_cases hs : c.Supports customStart customEnd
    · rw [Template.new_supported hs] at h
      cases he : c.effective customStart customEnd doNotAmend onlyCustom custom with
      | error e => rw [he] at h; cases h
      | ok am =>
        rw [he] at h
        obtain ⟨tb0, g1, g2, g3, g4, g5⟩ := C12_amendments_exact h
        refine ⟨am, tb0, rfl, g1, g2, g3, g4, ?_⟩
        intro k h0 h1
        obtain ⟨w, w0, e1, e2, e3, e4, _, _, e7, e8⟩ := g5 k h0 h1
        exact ⟨w, w0, e1, e2, e3, e4, e7, e8⟩
    · unfold Template.new at h
      rw [Template.getBounds_error hs] at h; cases h

/-- The preconfigured calendars are instances of the template. -/
theorem C78_preconfigured (c : Calendar) (customStart customEnd : Option Time) (doNotAmend onlyCustom : Bool)
    (custom : Option (List (Time × Int))) (heap : Heap Int) :
    c.new customStart customEnd doNotAmend onlyCustom custom heap =
      (c.template.new customStart customEnd doNotAmend onlyCustom custom heap).map Prod.fst := by
  have hb : c.template.getBounds customStart customEnd = c.getBounds customStart customEnd := rfl
  unfold Calendar.new Template.new
  rw [hb]
  cases c.getBounds customStart customEnd with
  | error e => rfl
  | ok b =>
    have hx : ∀ am, ({ c.template.params with start := b.1, stop := b.2, amendments := am } : Args Int) = Calendar.args b.1 b.2 am := fun _ => rfl
    simp only [Bind.bind, Except.bind, pure, Except.pure, hx]
    cases doNotAmend with
    | true => simp only [if_true]; cases Timeboard.new (Calendar.args b.1 b.2 []) heap <;> rfl
    | false =>
      cases onlyCustom with
      | true => simp only [if_true, Bool.false_eq_true, if_false]; cases Timeboard.new (Calendar.args b.1 b.2 (custom.getD [])) heap <;> rfl
      | false =>
        simp only [Bool.false_eq_true, if_false, Calendar.template]
        cases c.amendments (some b.1) (some b.2) custom with
        | error e => rfl
        | ok d =>
          first | rfl | (cases Timeboard.new (Calendar.args b.1 b.2 (d.map (fun x => (x.1.time, x.2)))) heap <;> rfl)

/-- The bounds of the timeboard and the workshifts, with amendments. -/
theorem daily_board {a : Args L} (ha : a.freq = Denom.D.freq) {lab : Int → L} {heap heap' : Heap L} {tb0 tb : Timeboard L}
    (p1 : Timeboard.new a.plain heap = .ok (tb0, heap'))
    (p3 : ∀ (t : Time), tb0.startTime ≤ t → t ≤ tb0.endTime →
        ∃ k w, tb0.timeline.wsPosition t = .ok k ∧ Workshift.new tb0 k = .ok w ∧ w.startTime tb0 = .ok (dayStart t) ∧ w.duration tb0 = .ok 1 ∧
          w.label = lab (dayOf t))
    (h : Timeboard.new a heap = .ok (tb, heap')) :
    dayOf a.start ≤ dayOf a.stop ∧ tb.startTime = dayStart a.start ∧ tb.endTime = dayStart a.stop + nsDay - 1 ∧
    ∀ (t : Time) (sch : Option (Schedule L)), dayOf a.start ≤ dayOf t → dayOf t ≤ dayOf a.stop →
      ∃ w, tb.getWorkshift t sch = .ok w ∧ w.startTime tb = .ok (dayStart t) ∧ w.endTime tb = .ok (dayStart t + nsDay - 1) ∧
        w.duration tb = .ok 1 ∧ (∀ x, tb.At x w.loc ↔ dayOf x = dayOf t) ∧
        (∀ x ∈ a.amendments, dayOf x.1 = dayOf t → w.label = x.2) ∧
        ((∀ x ∈ a.amendments, dayOf x.1 ≠ dayOf t) → w.label = lab (dayOf t)) := by
  have hse : dayOf a.start ≤ dayOf a.stop := by
    obtain ⟨_, f, _, _, _, _, hf, _⟩ := Timeboard.new_ok_iff.1 h
    rw [ha] at hf
    exact (Frame.new_ok_iff.1 hf).1
  have p2 : tb0.timeline.frame = ⟨Denom.D.freq, dayOf a.start, (dayOf a.stop - dayOf a.start + 1).toNat⟩ := by
    obtain ⟨_, f, _, _, g, _, g3, _⟩ := Timeboard.starts_iff rfl p1
    rw [g3]
    have g' : Frame.new a.freq a.start a.stop = .ok f := g
    rw [ha, Calendar.frame hse] at g'
    cases g'; rfl
  obtain ⟨tb0', q1, q2, q3, q4, q5⟩ := C12_amendments_exact h
  rw [p1] at q1; cases q1
  have hv0 : tb0.Valid := (Timeboard.Reachable.new p1).valid
  have hv : tb.Valid := (Timeboard.Reachable.new h).valid
  have hs0 : tb0.startTime = dayStart a.start := by
    unfold Timeboard.startTime Frame.startTime; rw [p2, Calendar.unitStart]; unfold dayStart; simp
  have he0 : tb0.endTime = dayStart a.stop + nsDay - 1 := by
    unfold Timeboard.endTime Frame.endTime; rw [p2, Frame.unitEnd_eq, Calendar.unitStart]
    simp only
    rw [show dayOf a.start + (((dayOf a.stop - dayOf a.start + 1).toNat : Int) - 1 + 1) = dayOf a.stop + 1 by omega]
    unfold dayStart; rw [Int.add_mul, Int.one_mul]
  obtain ⟨tbp, g1, wfp, g2⟩ := Timeboard.new_plain h
  rw [p1] at g1; cases g1
  obtain ⟨e1, e2, e3, e4, e5⟩ := Timeline.amend_frame g2
  refine ⟨hse, by rw [q2, hs0], by rw [q3, he0], ?_⟩
  intro t sch t1 t2
  have hb : tb0.startTime ≤ t ∧ t ≤ tb0.endTime := by
    rw [hs0, he0]; unfold dayStart
    unfold dayOf nsDay at *; omega
  obtain ⟨k, w0, hk, w1, w2, w3, w4⟩ := p3 t hb.1 hb.2
  have hk' : tb.timeline.wsPosition t = .ok k := by rw [Timeline.position_congr e1 e2 e3]; exact hk
  obtain ⟨hk0, hk1, hk2, hk3⟩ := (hv.wf.wsPosition_ok_iff t k).1 hk'
  obtain ⟨w, hw, hwl, _, hlab, hs, he, hr, hd⟩ := Workshift.exists_of_range hv sch hk0 hk1
  obtain ⟨wn, hwn, _, _, hlabn, hsn, hen, _, hdn⟩ := Workshift.exists_of_range hv none hk0 hk1
  obtain ⟨w', w0', r1, r2, r3, r4, _, r6, r7, r8⟩ := q5 k hk0 hk1
  rw [hwn] at r1; cases r1
  rw [w1] at r2; cases r2
  have hl : w.label = wn.label := by rw [hlab] at hlabn; simpa using hlabn
  have hstart : w.startTime tb = .ok (dayStart t) := by rw [hs, ← hsn, r3, w2]
  have hdur : w.duration tb = .ok 1 := by rw [hd, ← hdn, r6, w3]
  have hb1 : tb.timeline.frame.unitStart (tb.timeline.bnd k) = dayStart t := by
    rw [hs] at hstart; simpa using hstart
  have hb2 : tb.timeline.frame.unitStart (tb.timeline.bnd (k + 1)) = dayStart t + nsDay := by
    rw [hd] at hdur
    simp only [Except.ok.injEq] at hdur
    rw [show tb.timeline.bnd (k + 1) = tb.timeline.bnd k + 1 by omega]
    rw [e1, p2, Calendar.unitStart] at hb1 ⊢
    rw [← Int.add_assoc, Int.add_mul, Int.one_mul, hb1]
  have hat : ∀ x, tb.At x k ↔ dayOf x = dayOf t := by
    intro x
    rw [hv.at_iff, hv.wf.wsPosition_ok_iff, hb1, hb2]
    unfold dayStart dayOf nsDay at *
    omega
  refine ⟨w, ?_, hstart, by rw [he, hb2], hdur, by rw [hwl]; exact hat, ?_, ?_⟩
  · rcases hv.locate_none t with ⟨k', hk2', hloc⟩ | ⟨h3, _⟩ | ⟨h3, _⟩
    · rw [hk'] at hk2'; cases hk2'
      unfold Timeboard.getWorkshift; rw [hloc]; exact hw
    · exfalso; rw [← q2] at hb; omega
    · exfalso; rw [← q3] at hb; omega
  · intro x hx hd
    rw [hl]
    exact r7 x.1 x.2 hx ((hat _).2 hd)
  · intro hno
    rw [hl, r8 (fun x v hx ha => hno (x, v) hx ((hat _).1 ha)), w4]

/-- The arguments of the timeboard made by `CalendarBase` itself. -/
def baseArgs (s e : Time) (am : List (Time × Int)) : Args Int where
  freq := Denom.D.freq
  start := s
  stop := e
  layout := .pattern (.list [1])
  amendments := am
  selector := fun l => l != 0
  defaultLabel := -1

/-- `CalendarBase` itself: every day of the chosen range, by default of the years 2001 to 2030, is a workshift labelled 1
unless there is a custom amendment for it. -/
theorem C78_default {customStart customEnd : Option Time} {custom : Option (List (Time × Int))} {heap : Heap Int} {tb : Timeboard Int}
    {heap' : Heap Int} (h : calendarBase.new customStart customEnd false false custom heap = .ok (tb, heap')) :
    tb.startTime = dayOf (customStart.getD (date 2001 1 1)) * nsDay ∧
    tb.endTime = (dayOf (customEnd.getD (date 2030 12 31)) + 1) * nsDay - 1 ∧
    ∀ t, tb.Within t → ∃ w, tb.getWorkshift t = .ok w ∧ w.startTime tb = .ok (dayOf t * nsDay) ∧
      w.endTime tb = .ok ((dayOf t + 1) * nsDay - 1) ∧
      (∀ x ∈ custom.getD [], dayOf x.1 = dayOf t → w.label = x.2) ∧
      ((∀ x ∈ custom.getD [], dayOf x.1 ≠ dayOf t) → w.label = 1) := by
  have hs : calendarBase.Supports customStart customEnd := by
    by_cases hs : calendarBase.Supports customStart customEnd
    · exact hs
    · rw [(C78_template calendarBase _ _ _ _ _ _).1 hs] at h; cases h
  rw [Template.new_supported hs] at h
  have h' : Timeboard.new (baseArgs (customStart.getD (date 2001 1 1)) (customEnd.getD (date 2030 12 31)) (custom.getD [])) heap =
      .ok (tb, heap') := h
  clear h hs
  generalize customStart.getD (date 2001 1 1) = s at h' ⊢
  generalize customEnd.getD (date 2030 12 31) = e at h' ⊢
  generalize custom.getD [] = am at h' ⊢
  have hle : dayOf s ≤ dayOf e := by
    obtain ⟨_, f, _, _, _, _, hf, _⟩ := Timeboard.new_ok_iff.1 h'
    exact (Frame.new_ok_iff.1 hf).1
  obtain ⟨tb0, p1, p2, p3⟩ := C06_pattern (heap := heap) (xs := [1]) (a := baseArgs s e []) rfl rfl (by simp)
    (by simp [baseArgs]) (Calendar.frame hle)
  have p2 : tb0.timeline.frame = ⟨Denom.D.freq, dayOf s, (dayOf e - dayOf s + 1).toNat⟩ := p2
  have p3 : ∀ i : Nat, i < (dayOf e - dayOf s + 1).toNat → ∃ l,
      tb0.Starts ((⟨Denom.D.freq, dayOf s, (dayOf e - dayOf s + 1).toNat⟩ : Frame).unitStart i) 1 l ∧ cyclic [1] i = some l := p3
  obtain ⟨tb0', q1, -⟩ := C12_amendments_exact h'
  have hh : heap' = heap := by
    have q1' : Timeboard.new (baseArgs s e []) heap = .ok (tb0', heap') := q1
    rw [p1] at q1'; cases q1'; rfl
  subst hh
  have hv0 : tb0.Valid := (Timeboard.Reachable.new p1).valid
  obtain ⟨-, d2, d3, d4⟩ := daily_board (a := baseArgs s e am) rfl (lab := fun _ => (1 : Int)) p1 (by
    intro t t1 t2
    have hs0 : tb0.startTime = dayStart s := by
      unfold Timeboard.startTime Frame.startTime; rw [p2, Calendar.unitStart]; unfold dayStart; simp
    have he0 : tb0.endTime = dayStart e + nsDay - 1 := by
      unfold Timeboard.endTime Frame.endTime; rw [p2, Frame.unitEnd_eq, Calendar.unitStart]
      simp only
      rw [show dayOf s + (((dayOf e - dayOf s + 1).toNat : Int) - 1 + 1) = dayOf e + 1 by omega]
      unfold dayStart; rw [Int.add_mul, Int.one_mul]
    have hd : dayOf s ≤ dayOf t ∧ dayOf t ≤ dayOf e := by
      rw [hs0] at t1; rw [he0] at t2
      unfold dayStart dayOf nsDay at *; omega
    obtain ⟨l, ⟨k, w, k0, k1, w1, w2, w3, w4⟩, hc⟩ := p3 (dayOf t - dayOf s).toNat (by omega)
    have hl : l = 1 := by
      simp only [cyclic, List.length_singleton, Nat.mod_one, List.getElem?_cons_zero, Option.some.injEq] at hc
      exact hc.symm
    have e1 : (dayOf s + ((dayOf t - dayOf s).toNat : Int)) * nsDay = dayStart t := by
      unfold dayStart; rw [show dayOf s + ((dayOf t - dayOf s).toNat : Int) = dayOf t by omega]
    rw [Calendar.unitStart, e1] at w2
    refine ⟨k, w, ?_, w1, w2, w3, by rw [w4, hl]⟩
    obtain ⟨w', hw', -, -, -, hs, -, -, hdu⟩ := Workshift.exists_of_range hv0 none k0 k1
    rw [w1] at hw'; cases hw'
    rw [hs] at w2; rw [hdu] at w3
    simp only [Except.ok.injEq] at w2 w3
    refine (hv0.wf.wsPosition_ok_iff t k).2 ⟨k0, k1, ?_, ?_⟩
    · rw [w2]; unfold dayStart dayOf nsDay at *; omega
    · rw [show tb0.timeline.bnd (k + 1) = tb0.timeline.bnd k + 1 by omega]
      rw [p2, Calendar.unitStart] at w2 ⊢
      rw [← Int.add_assoc, Int.add_mul, Int.one_mul, w2]
      unfold dayStart dayOf nsDay at *; omega) h'
  have e1 : ∀ x : Time, dayStart x + nsDay - 1 = (dayOf x + 1) * nsDay - 1 := by intro x; unfold dayStart nsDay; omega
  have d2' : tb.startTime = dayStart s := d2
  have d3' : tb.endTime = dayStart e + nsDay - 1 := d3
  refine ⟨d2', by rw [d3', e1], ?_⟩
  intro t ht
  have hd : dayOf s ≤ dayOf t ∧ dayOf t ≤ dayOf e := by
    unfold Timeboard.Within at ht
    rw [d2', d3'] at ht
    unfold dayStart dayOf nsDay at *; omega
  obtain ⟨w, w1, w2, w3, _, _, w5, w6⟩ := d4 t none hd.1 hd.2
  exact ⟨w, w1, w2, by rw [w3, e1], w5, w6⟩

/-- `CalendarBase` for a week with two custom amendments, one of them outside; a subclass by hours whose `amendments` makes
every first hour of the range a day off. -/
example : (calendarBase.new (some (date 2017 3 1)) (some (date 2017 3 7)) false false (some [(date 2017 3 2 + 5, 0), (date 2019 3 1, 0)]) heap0).map
      (fun r => r.1.timeline.labels) = .ok [1, 0, 1, 1, 1, 1, 1] ∧
    (calendarBase.new (some (date 2017 3 1)) (some (date 2017 3 7)) true false (some [(date 2017 3 2, 0)]) heap0).map
      (fun r => r.1.timeline.labels) = .ok [1, 1, 1, 1, 1, 1, 1] ∧
    (calendarBase.new (some (date 2000 12 31)) none false false none heap0).map (fun _ => ()) = .error .outOfBounds ∧
    (calendarBase.new none (some (date 2030 12 31 + 1)) false false none heap0).map (fun _ => ()) = .error .outOfBounds ∧
    (Template.new { params := { weekArgs with freq := fH, layout := .pattern (.list [5]) }, amend := fun a _ c => .ok ((a, 0) :: c.getD []) }
      none (some (date 2017 1 1 + 3 * nsHour)) false false (some [(date 2017 1 1 + 2 * nsHour, 3)]) heap0).map
      (fun r => r.1.timeline.labels) = .ok [0, 5, 3, 5] ∧
    (Template.new { params := { weekArgs with freq := fH, layout := .pattern (.list [5]) }, amend := fun a _ c => .ok ((a, 0) :: c.getD []) }
      none (some (date 2017 1 1 + 3 * nsHour)) false true (some [(date 2017 1 1 + 2 * nsHour, 3)]) heap0).map
      (fun r => r.1.timeline.labels) = .ok [5, 5, 3, 5] := by decide +kernel

end TB
