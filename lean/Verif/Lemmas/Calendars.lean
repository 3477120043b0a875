import Verif.Props.Layout
import Verif.Props.Amend
import Verif.Lemmas.Dict
/-! The timeboard of a preconfigured calendar: days in weeks of 8, 8, 8, 8, 8, 0, 0 hours, amended. -/
namespace TB

/-- The label of a day by its weekday. -/
def weekLabel (d : Int) : Int := if weekday d < 5 then 8 else 0

theorem cyclic_week (t : Time) :
    cyclic [8, 8, 8, 8, 8, 0, 0] ((Period.ofTime Denom.D.freq t).ord -
      (Period.ofTime Denom.D.freq (Period.ofTime (Denom.W none).freq t).startTime).ord).toNat = some (weekLabel (dayOf t)) := by
  have e1 : (Period.ofTime Denom.D.freq t).ord = dayOf t := rfl
  have e2 : (Period.ofTime Denom.D.freq (Period.ofTime (Denom.W none).freq t).startTime).ord =
      7 * ((dayOf t - 6 + 2) / 7) + 6 - 2 := by
    show (7 * ((t / nsDay - ((6 : Nat) : Int) + 2) / 7) + ((6 : Nat) : Int) - 2) * nsDay / nsDay = _
    rw [Int.mul_ediv_cancel _ (by decide)]; rfl
  rw [e1, e2]
  generalize dayOf t = d
  have hw : d - (7 * ((d - 6 + 2) / 7) + 6 - 2) = weekday d := by unfold weekday; omega
  rw [hw]
  unfold weekLabel
  have h0 : 0 ≤ weekday d ∧ weekday d < 7 := by unfold weekday; omega
  generalize weekday d = w at h0
  have : w = 0 ∨ w = 1 ∨ w = 2 ∨ w = 3 ∨ w = 4 ∨ w = 5 ∨ w = 6 := by omega
  rcases this with h | h | h | h | h | h | h <;> subst h <;> rfl

theorem Calendar.frame {s e : Time} (h : dayOf s ≤ dayOf e) :
    Frame.new Denom.D.freq s e = .ok ⟨Denom.D.freq, dayOf s, (dayOf e - dayOf s + 1).toNat⟩ := by
  rw [Frame.new_ok_iff]
  refine ⟨h, ?_⟩
  show _ = (⟨Denom.D.freq, dayOf s, ((dayOf e - dayOf s) / (1 : Nat) + 1).toNat⟩ : Frame)
  simp

theorem Calendar.unitStart (o : Int) (n : Nat) (i : Int) : (⟨Denom.D.freq, o, n⟩ : Frame).unitStart i = (o + i) * nsDay := by
  show (o + ((1 : Nat) : Int) * i) * nsDay = _
  simp

/-- The timeboard without amendments. -/
theorem Calendar.board_plain {s e : Time} (h : dayOf s ≤ dayOf e) (heap : Heap Int) :
    ∃ tb, Timeboard.new (Calendar.args s e []) heap = .ok (tb, heap) ∧
      tb.timeline.frame = ⟨Denom.D.freq, dayOf s, (dayOf e - dayOf s + 1).toNat⟩ ∧
      ∀ (t : Time), tb.startTime ≤ t → t ≤ tb.endTime →
        ∃ k w, tb.timeline.wsPosition t = .ok k ∧ Workshift.new tb k = .ok w ∧ w.startTime tb = .ok (dayStart t) ∧ w.duration tb = .ok 1 ∧
          w.label = weekLabel (dayOf t) := by
  obtain ⟨tb, h1, h2⟩ := C07_calendar_pattern (a := Calendar.args s e []) (heap := heap) rfl rfl (by simp) (by simp [Calendar.args])
    (Calendar.frame h) (show checkGroupbyFreq Denom.D.freq (Denom.W none).freq = true by decide) rfl rfl
  refine ⟨tb, h1, ?_, ?_⟩
  · obtain ⟨_, f, _, _, g, _, g3, _⟩ := Timeboard.starts_iff rfl h1
    rw [g3]
    have g' : Frame.new Denom.D.freq s e = .ok f := g
    rw [Calendar.frame h] at g'
    cases g'; rfl
  · intro t t1 t2
    obtain ⟨w, w1, w2, w3, w4⟩ := h2 t none t1 t2
    have hv : tb.Valid := (Timeboard.Reachable.new h1).valid
    have h3 := cyclic_week t
    have w4 : cyclic [8, 8, 8, 8, 8, 0, 0] ((Period.ofTime Denom.D.freq t).ord -
      (Period.ofTime Denom.D.freq (Period.ofTime (Denom.W none).freq t).startTime).ord).toNat = some w.label := w4
    rw [h3] at w4
    rcases hv.locate_none t with ⟨k, hk, hloc⟩ | ⟨h3, h4⟩ | ⟨h3, h4⟩
    · refine ⟨k, w, hk, ?_, w2, w3, by simpa using w4.symm⟩
      unfold Timeboard.getWorkshift at w1; rw [hloc] at w1; exact w1
    · unfold Timeboard.getWorkshift at w1; rw [h4] at w1; simp at w1
    · unfold Timeboard.getWorkshift at w1; rw [h4] at w1; simp at w1

/-- The bounds of the timeboard and the workshifts, with amendments. -/
theorem Calendar.board {s e : Time} {am : List (Time × Int)} {heap heap' : Heap Int} {tb : Timeboard Int}
    (h : Timeboard.new (Calendar.args s e am) heap = .ok (tb, heap')) :
    dayOf s ≤ dayOf e ∧ tb.startTime = dayStart s ∧ tb.endTime = dayStart e + nsDay - 1 ∧
    ∀ (t : Time) (sch : Option (Schedule Int)), dayOf s ≤ dayOf t → dayOf t ≤ dayOf e →
      ∃ w, tb.getWorkshift t sch = .ok w ∧ w.startTime tb = .ok (dayStart t) ∧ w.endTime tb = .ok (dayStart t + nsDay - 1) ∧
        w.duration tb = .ok 1 ∧ (∀ x, tb.At x w.loc ↔ dayOf x = dayOf t) ∧
        (∀ x ∈ am, dayOf x.1 = dayOf t → w.label = x.2) ∧
        ((∀ x ∈ am, dayOf x.1 ≠ dayOf t) → w.label = weekLabel (dayOf t)) := by
  have hse : dayOf s ≤ dayOf e := by
    obtain ⟨_, f, _, _, _, _, hf, _⟩ := Timeboard.new_ok_iff.1 h
    exact (Frame.new_ok_iff.1 hf).1
  obtain ⟨tb0, p1, p2, p3⟩ := Calendar.board_plain hse heap
  obtain ⟨tb0', q1, q2, q3, q4, q5⟩ := C12_amendments_exact h
  have q1' : Timeboard.new (Calendar.args s e []) heap = .ok (tb0', heap') := q1
  rw [p1] at q1'; cases q1'
  have hv0 : tb0.Valid := (Timeboard.Reachable.new p1).valid
  have hv : tb.Valid := (Timeboard.Reachable.new h).valid
  have hs0 : tb0.startTime = dayStart s := by
    unfold Timeboard.startTime Frame.startTime; rw [p2, Calendar.unitStart]; unfold dayStart; simp
  have he0 : tb0.endTime = dayStart e + nsDay - 1 := by
    unfold Timeboard.endTime Frame.endTime; rw [p2, Frame.unitEnd_eq, Calendar.unitStart]
    simp only
    rw [show dayOf s + (((dayOf e - dayOf s + 1).toNat : Int) - 1 + 1) = dayOf e + 1 by omega]
    unfold dayStart; rw [Int.add_mul, Int.one_mul]
  obtain ⟨tbp, g1, wfp, g2⟩ := Timeboard.new_plain h
  have g1' : Timeboard.new (Calendar.args s e []) heap = .ok (tbp, heap) := g1
  rw [p1] at g1'; cases g1'
  obtain ⟨e1, e2, e3, e4, e5⟩ := Timeline.amend_frame g2
  refine ⟨hse, by rw [q2, hs0], by rw [q3, he0], ?_⟩
  intro t sch t1 t2
  have hb : tb0.startTime ≤ t ∧ t ≤ tb0.endTime := by
    rw [hs0, he0]; unfold dayStart
    unfold dayOf nsDay at *; omega
  obtain ⟨k, w0, hk, w1, w2, w3, w4⟩ := p3 t hb.1 hb.2
  have hk' : tb.timeline.wsPosition t = .ok k := by rw [Timeline.position_congr e1 e2 e3]; exact hk
  obtain ⟨hk0, hk1, hk2, hk3⟩ := (hv.wf.wsPosition_ok_iff t k).1 hk'
  obtain ⟨w, hw, hwl, _, hlab, hs, he, hr, hd⟩ := Workshift.exists_of_range hv sch hk0 hk1
  obtain ⟨wn, hwn, _, _, hlabn, hsn, hen, _, hdn⟩ := Workshift.exists_of_range hv none hk0 hk1
  obtain ⟨w', w0', r1, r2, r3, r4, _, r6, r7, r8⟩ := q5 k hk0 hk1
  rw [hwn] at r1; cases r1
  rw [w1] at r2; cases r2
  have hl : w.label = wn.label := by rw [hlab] at hlabn; simpa using hlabn
  have hstart : w.startTime tb = .ok (dayStart t) := by rw [hs, ← hsn, r3, w2]
  have hdur : w.duration tb = .ok 1 := by rw [hd, ← hdn, r6, w3]
  have hb1 : tb.timeline.frame.unitStart (tb.timeline.bnd k) = dayStart t := by
    rw [hs] at hstart; simpa using hstart
  have hb2 : tb.timeline.frame.unitStart (tb.timeline.bnd (k + 1)) = dayStart t + nsDay := by
    rw [hd] at hdur
    simp only [Except.ok.injEq] at hdur
    rw [show tb.timeline.bnd (k + 1) = tb.timeline.bnd k + 1 by omega]
    rw [e1, p2, Calendar.unitStart] at hb1 ⊢
    rw [← Int.add_assoc, Int.add_mul, Int.one_mul, hb1]
  have hat : ∀ x, tb.At x k ↔ dayOf x = dayOf t := by
    intro x
    rw [hv.at_iff, hv.wf.wsPosition_ok_iff, hb1, hb2]
    unfold dayStart dayOf nsDay at *
    omega
  refine ⟨w, ?_, hstart, by rw [he, hb2], hdur, by rw [hwl]; exact hat, ?_, ?_⟩
  · rcases hv.locate_none t with ⟨k', hk2', hloc⟩ | ⟨h3, _⟩ | ⟨h3, _⟩
    · rw [hk'] at hk2'; cases hk2'
      unfold Timeboard.getWorkshift; rw [hloc]; exact hw
    · exfalso; rw [← q2] at hb; omega
    · exfalso; rw [← q3] at hb; omega
  · intro x hx hd
    rw [hl]
    exact r7 x.1 x.2 hx ((hat _).2 hd)
  · intro hno
    rw [hl, r8 (fun x v hx ha => hno (x, v) hx ((hat _).1 ha)), w4]

/-- Two items refer to the same day from `a` to `b`. -/
def SameDay (a b : Int) (am : List (Time × Int)) : Prop :=
  ∃ (i j : Nat) (p q : Time × Int), i < j ∧ am[i]? = some p ∧ am[j]? = some q ∧ dayOf p.1 = dayOf q.1 ∧ a ≤ dayOf p.1 ∧ dayOf p.1 ≤ b

/-- Whether the timeboard can be built. -/
theorem Calendar.board_exists (s e : Time) (am : List (Time × Int)) (heap : Heap Int) :
    (dayOf e < dayOf s → Timeboard.new (Calendar.args s e am) heap = .error .voidInterval) ∧
    (dayOf s ≤ dayOf e → SameDay (dayOf s) (dayOf e) am → Timeboard.new (Calendar.args s e am) heap = .error .keyError) ∧
    (dayOf s ≤ dayOf e → ¬ SameDay (dayOf s) (dayOf e) am → ∃ tb, Timeboard.new (Calendar.args s e am) heap = .ok (tb, heap)) := by
  constructor
  · intro h
    have hf : Frame.new Denom.D.freq s e = .error .voidInterval := Frame.new_error_iff.2 ⟨rfl, h⟩
    unfold Timeboard.new
    have e1 : makeOrganizer (Calendar.args s e am).layout = .ok (Calendar.args s e am).layout := rfl
    rw [e1]
    have e2 : (Calendar.args s e am).worktimeSource ∈ ["duration", "labels"] := by simp [Calendar.args]
    have e3 : Frame.new (Calendar.args s e am).freq (Calendar.args s e am).start (Calendar.args s e am).stop = .error .voidInterval := hf
    simp only [e2, not_true_eq_false, if_false, e3]
  · rw [← forall_and]
    intro h
    obtain ⟨tb0, p1, p2, p3⟩ := Calendar.board_plain h heap
    have hv0 : tb0.Valid := (Timeboard.Reachable.new p1).valid
    have p1' : Timeboard.new (Calendar.args s e am).plain heap = .ok (tb0, heap) := p1
    obtain ⟨c1, c2, _⟩ := C13_conflict_rejected p1'
    have hb := Calendar.board p1
    have hiff : tb0.Conflict am ↔ SameDay (dayOf s) (dayOf e) am := by
      constructor
      · rintro ⟨i, j, p, q, k, hij, hp, hq, ha1, ha2⟩
        have hr : dayOf s ≤ dayOf p.1 ∧ dayOf p.1 ≤ dayOf e := by
          have h0 := hv0.wf.position_in_frame (hv0.at_iff.1 ha1)
          have h1 : tb0.startTime ≤ p.1 ∧ p.1 ≤ tb0.endTime := h0
          rw [hb.2.1, hb.2.2.1] at h1
          unfold dayStart dayOf nsDay at *
          omega
        obtain ⟨w, _, _, _, _, hat, _⟩ := hb.2.2.2 p.1 none hr.1 hr.2
        have hk : k = w.loc := by
          have h1 := hv0.at_iff.1 ha1
          have h2 := hv0.at_iff.1 ((hat p.1).2 rfl)
          rw [h1] at h2; simpa using h2
        rw [hk, hat] at ha2
        exact ⟨i, j, p, q, hij, hp, hq, ha2.symm, hr.1, hr.2⟩
      · rintro ⟨i, j, p, q, hij, hp, hq, hd, r1, r2⟩
        obtain ⟨w, _, _, _, _, hat, _⟩ := hb.2.2.2 p.1 none r1 r2
        exact ⟨i, j, p, q, w.loc, hij, hp, hq, (hat _).2 rfl, (hat _).2 hd.symm⟩
    constructor
    · intro hs; exact c1 (hiff.2 hs)
    · intro hs; exact c2 (fun hc => hs (hiff.1 hc))

end TB
