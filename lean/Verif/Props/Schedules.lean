import Verif.Props.Duty
/-! Property C70: schedules which select the opposite, and schedules which select the same. -/
namespace TB
open TB.Ex
variable {L : Type}

/-- 'on' and 'off' exchanged, the other values of `duty` unchanged. -/
def Duty.swap : Duty → Duty
  | .on => .off
  | .off => .on
  | d => d

/-- On the labels of the timeboard the schedules make opposite decisions. -/
def Timeboard.Opposite (tb : Timeboard L) (s t : Schedule L) : Prop := ∀ l ∈ tb.timeline.labels, t.selector l = !s.selector l

theorem nonzeroBy_congr (p q : L → Bool) : ∀ (ls : List L) (i : Int), (∀ l ∈ ls, p l = q l) → nonzeroBy p ls i = nonzeroBy q ls i := by
  intro ls
  induction ls with
  | nil => intro i _; rfl
  | cons l ls ih =>
    intro i h
    simp only [nonzeroBy]
    rw [h l (by simp), ih _ (fun x hx => h x (by simp [hx]))]

theorem pyGet?_mem {α : Type} {xs : List α} {i : Int} {x : α} (h : pyGet? xs i = some x) : x ∈ xs := by
  unfold pyGet? at h
  split at h
  · exact List.mem_of_getElem? h
  · split at h
    · exact List.mem_of_getElem? h
    · cases h

theorem Timeline.label_mem {tl : Timeline L} {k : Int} {l : L} (h : tl.label k = .ok l) : l ∈ tl.labels := by
  unfold Timeline.label orIndexError at h
  split at h
  · rename_i x hx
    cases h
    exact pyGet?_mem hx
  · cases h

theorem Timeboard.Opposite.idx {tb : Timeboard L} {s t : Schedule L} (hs : tb.Owns s) (ht : tb.Owns t) (h : tb.Opposite s t) :
    t.onIdx = s.offIdx ∧ t.offIdx = s.onIdx := by
  unfold Timeboard.Owns at hs ht
  rw [hs, ht]
  unfold Schedule.new
  simp only
  constructor
  · exact nonzeroBy_congr _ _ _ _ h
  · apply nonzeroBy_congr
    intro l hl
    rw [h l hl, Bool.not_not]

theorem Timeboard.Opposite.isOn {tb : Timeboard L} {s t : Schedule L} (h : tb.Opposite s t) (k : Int) :
    t.isOnDuty tb.timeline k = s.isOffDuty tb.timeline k ∧ t.isOffDuty tb.timeline k = s.isOnDuty tb.timeline k := by
  unfold Schedule.isOffDuty Schedule.isOnDuty
  cases hl : tb.timeline.label k with
  | error e => exact ⟨rfl, rfl⟩
  | ok l =>
    have := h l (Timeline.label_mem hl)
    constructor
    · show Except.ok (t.selector l) = Except.ok (!s.selector l)
      rw [this]
    · show Except.ok (!t.selector l) = Except.ok (s.selector l)
      rw [this, Bool.not_not]

theorem Timeboard.Opposite.dutyIdx {tb : Timeboard L} {s t : Schedule L} (hs : tb.Owns s) (ht : tb.Owns t) (h : tb.Opposite s t)
    (v : Interval L) (d : Duty) : v.dutyIdx tb d.swap t = v.dutyIdx tb d s := by
  obtain ⟨e1, e2⟩ := h.idx hs ht
  cases d <;> simp only [Duty.swap, Interval.dutyIdx, e1, e2]

theorem Timeboard.Opposite.dutyIndex {tb : Timeboard L} {s t : Schedule L} (hs : tb.Owns s) (ht : tb.Owns t) (h : tb.Opposite s t)
    (w : Workshift L) (d : Duty) : w.dutyIndex tb d.swap t = w.dutyIndex tb d s := by
  obtain ⟨e1, e2⟩ := h.idx hs ht
  obtain ⟨e3, e4⟩ := h.isOn w.loc
  unfold Workshift.dutyIndex Workshift.isOnDuty Workshift.isOffDuty
  simp only [Option.getD_some, e3, e4]
  unfold Schedule.isOffDuty
  cases hb : s.isOnDuty tb.timeline w.loc with
  | error e => rfl
  | ok b => cases b <;> cases d <;> simp [Duty.swap, bind, Except.bind, pure, Except.pure, e1, e2]

theorem new_loc_map (tb : Timeboard L) (k : Int) (s t : Option (Schedule L)) :
    (Workshift.new tb k s).map (fun w => w.loc) = (Workshift.new tb k t).map (fun w => w.loc) := by
  unfold Workshift.new
  cases tb.timeline.label k <;> rfl

theorem workshiftAt_loc_map (tb : Timeboard L) (idx : List Int) (i : Int) (s t : Schedule L) :
    (workshiftAt tb idx i s).map (fun w => w.loc) = (workshiftAt tb idx i t).map (fun w => w.loc) := by
  unfold workshiftAt
  split
  · rfl
  · exact new_loc_map tb _ _ _

theorem mapM_new_loc_map (tb : Timeboard L) (s t : Option (Schedule L)) (ks : List Int) :
    (ks.mapM (fun i => Workshift.new tb i s)).map (List.map (fun w => w.loc)) =
    (ks.mapM (fun i => Workshift.new tb i t)).map (List.map (fun w => w.loc)) := by
  induction ks with
  | nil => rfl
  | cons k ks ih =>
    rw [List.mapM_cons, List.mapM_cons]
    have h1 := new_loc_map tb k s t
    cases ha : Workshift.new tb k s <;> cases hb : Workshift.new tb k t <;> rw [ha, hb] at h1
    · simpa [Except.map, bind, Except.bind] using h1
    · cases h1
    · cases h1
    · cases hc : ks.mapM (fun i => Workshift.new tb i s) <;> cases hd : ks.mapM (fun i => Workshift.new tb i t) <;> rw [hc, hd] at ih
      · simpa [Except.map, bind, Except.bind] using ih
      · cases ih
      · cases ih
      · simp only [Except.map, Except.ok.injEq] at h1 ih
        simp [Except.map, bind, Except.bind, pure, Except.pure, h1, ih]

/-- **C70.** If two schedules of a timeboard make opposite decisions on all labels of the timeboard, then exchanging one for the
other together with 'on' and 'off' does not change any calculation: duty of a workshift, rolling, the workshifts of an interval and
their number, the n-th workshift, total duration and worktime; including the errors.  (Where the result is a workshift or a list
of them, the same positions; the results bear different schedules.) -/
theorem C70_opposite_schedules {tb : Timeboard L} {s t : Schedule L} (hs : tb.Owns s) (ht : tb.Owns t) (h : tb.Opposite s t)
    (v : Interval L) (w : Workshift L) (d : Duty) (n : Int) (num : L → Option Rat) :
    w.isOnDuty tb (some t) = w.isOffDuty tb (some s) ∧ w.isOffDuty tb (some t) = w.isOnDuty tb (some s) ∧
    (w.rollforward tb n d.swap (some t)).map (fun w => w.loc) = (w.rollforward tb n d (some s)).map (fun w => w.loc) ∧
    (w.rollback tb n d.swap (some t)).map (fun w => w.loc) = (w.rollback tb n d (some s)).map (fun w => w.loc) ∧
    w.worktime tb num d.swap (some t) = w.worktime tb num d (some s) ∧
    (v.workshifts tb d.swap (some t)).map (List.map (fun w => w.loc)) = (v.workshifts tb d (some s)).map (List.map (fun w => w.loc)) ∧
    (v.nth tb n d.swap (some t)).map (fun w => w.loc) = (v.nth tb n d (some s)).map (fun w => w.loc) ∧
    v.count tb d.swap (some t) = v.count tb d (some s) ∧
    v.totalDuration tb d.swap (some t) = v.totalDuration tb d (some s) ∧
    v.worktime tb num d.swap (some t) = v.worktime tb num d (some s) := by
  have hidx := h.dutyIdx hs ht v d
  have hw := h.dutyIndex hs ht w d
  obtain ⟨e3, e4⟩ := h.isOn w.loc
  have o1 : w.isOnDuty tb (some t) = w.isOffDuty tb (some s) := e3
  have o2 : w.isOffDuty tb (some t) = w.isOnDuty tb (some s) := e4
  have htd : v.totalDuration tb d.swap (some t) = v.totalDuration tb d (some s) := by
    unfold Interval.totalDuration
    simp only [Option.getD_some, hidx]
  refine ⟨o1, o2, ?_, ?_, ?_, ?_, ?_, ?_, htd, ?_⟩
  · unfold Workshift.rollforward
    simp only [Option.getD_some, hw, bind, Except.bind]
    cases hx : w.dutyIndex tb d s with
    | error e => rfl
    | ok idx =>
      simp only
      split
      · rfl
      · exact workshiftAt_loc_map tb _ _ _ _
  · unfold Workshift.rollback
    simp only [Option.getD_some, hw, bind, Except.bind]
    cases hx : w.dutyIndex tb d s with
    | error e => rfl
    | ok idx =>
      simp only
      split
      · rfl
      · exact workshiftAt_loc_map tb _ _ _ _
  · unfold Workshift.worktime
    simp only [Option.getD_some, o1, o2]
    unfold Workshift.isOffDuty Workshift.isOnDuty Schedule.isOffDuty
    simp only [Option.getD_some]
    cases s.isOnDuty tb.timeline w.loc with
    | error e => rfl
    | ok b => cases d <;> rfl
  · unfold Interval.workshifts
    simp only [Option.getD_some, hidx]
    split
    · rfl
    · split
      · rfl
      · rfl
      · exact mapM_new_loc_map tb _ _ _
  · unfold Interval.nth
    simp only [Option.getD_some, hidx]
    split
    · rfl
    · split
      · rfl
      · rfl
      · rename_i idx a b _
        by_cases hc : (if n ≥ 0 then a + n else b + n + 1) < a ∨ (if n ≥ 0 then a + n else b + n + 1) > b
        · rw [if_pos hc, if_pos hc]
        · rw [if_neg hc, if_neg hc]
          exact workshiftAt_loc_map tb _ _ _ _
  · unfold Interval.count
    simp only [Option.getD_some, hidx]
  · unfold Interval.worktime
    rw [htd]
    unfold Interval.sumLabels
    simp only [Option.getD_some, hidx]

/-- **C70**, second part: the name of a schedule, and what its selector does with labels which do not occur on the timeboard, are of no
consequence. -/
theorem C70_same_selection {tb : Timeboard L} {s t : Schedule L} (hs : tb.Owns s) (ht : tb.Owns t)
    (h : ∀ l ∈ tb.timeline.labels, t.selector l = s.selector l) (v : Interval L) (w : Workshift L) (d : Duty) (n : Int) (num : L → Option Rat) :
    w.isOnDuty tb (some t) = w.isOnDuty tb (some s) ∧ w.isOffDuty tb (some t) = w.isOffDuty tb (some s) ∧
    (w.rollforward tb n d (some t)).map (fun w => w.loc) = (w.rollforward tb n d (some s)).map (fun w => w.loc) ∧
    (w.rollback tb n d (some t)).map (fun w => w.loc) = (w.rollback tb n d (some s)).map (fun w => w.loc) ∧
    w.worktime tb num d (some t) = w.worktime tb num d (some s) ∧
    (v.workshifts tb d (some t)).map (List.map (fun w => w.loc)) = (v.workshifts tb d (some s)).map (List.map (fun w => w.loc)) ∧
    (v.nth tb n d (some t)).map (fun w => w.loc) = (v.nth tb n d (some s)).map (fun w => w.loc) ∧
    v.count tb d (some t) = v.count tb d (some s) ∧
    v.totalDuration tb d (some t) = v.totalDuration tb d (some s) ∧
    v.worktime tb num d (some t) = v.worktime tb num d (some s) := by
  let m : Schedule L := Schedule.new tb.timeline "m" (fun l => !s.selector l)
  have hm : tb.Owns m := rfl
  have a := C70_opposite_schedules hs hm (fun l _ => rfl) v w d n num
  have b := C70_opposite_schedules ht hm (fun l hl => by show (!s.selector l) = !t.selector l; rw [h l hl]) v w d n num
  obtain ⟨a1, a2, a3, a4, a5, a6, a7, a8, a9, a10⟩ := a
  obtain ⟨b1, b2, b3, b4, b5, b6, b7, b8, b9, b10⟩ := b
  exact ⟨b2.symm.trans a2, b1.symm.trans a1, b3.symm.trans a3, b4.symm.trans a4, b5.symm.trans a5, b6.symm.trans a6, b7.symm.trans a7,
    b8.symm.trans a8, b9.symm.trans a9, b10.symm.trans a10⟩

/-- The same interval with another schedule. -/
def Interval.put (t : Schedule L) (v : Interval L) : Interval L := { v with schedule := t }

theorem Interval.make_put (tb : Timeboard L) (b : Int × Int) (s t : Schedule L) (void : Bool) :
    Interval.make tb b (some t) void = (Interval.make tb b (some s) void).map (Interval.put t) := by
  unfold Interval.make
  cases handleBound tb b.1 with
  | error e => rfl
  | ok x =>
    cases handleBound tb b.2 with
    | error e => rfl
    | ok y =>
      simp only
      split <;> split <;> rfl

theorem Timeboard.getInterval_put (tb : Timeboard L) (ref : Option IvlRef) (length : Option Int) (period : Option Freq) (clip : Bool)
    (closed : String) (s t : Schedule L) :
    tb.getInterval ref length period clip closed (some t) = (tb.getInterval ref length period clip closed (some s)).map (Interval.put t) := by
  unfold Timeboard.getInterval
  split
  · rfl
  · simp only
    cases tb.intervalLocs ref length period clip _ _ with
    | error e => rfl
    | ok locs =>
      simp only
      unfold Timeboard.finishInterval
      repeat' (first | rfl | exact Interval.make_put tb _ s t _ | split)

theorem Interval.overlap_put (tb : Timeboard L) (v o : Interval L) (s t : Schedule L) :
    v.overlap tb o (some t) = (v.overlap tb o (some s)).map (Interval.put t) := by
  unfold Interval.overlap
  simp only [Option.getD_some]
  split
  · exact Interval.make_put tb _ s t true
  · unfold Interval.new Interval.newVoid
    rw [Interval.make_put tb _ s t false]
    cases Interval.make tb (max v.lo o.lo, min v.hi o.hi) (some s) false with
    | ok x => rfl
    | error e =>
      cases e <;> first | rfl | exact Interval.make_put tb _ s t true

/-- What the calculations make of a schedule together with a duty. -/
def Timeboard.Alike (tb : Timeboard L) (s t : Schedule L) (d d' : Duty) : Prop :=
  (∀ v : Interval L, v.count tb d' (some t) = v.count tb d (some s)) ∧
  ∀ (v : Interval L) (n : Int), (v.nth tb n d' (some t)).map (fun w => w.loc) = (v.nth tb n d (some s)).map (fun w => w.loc)

theorem Timeboard.Alike.portion {tb : Timeboard L} {s t : Schedule L} {d d' : Duty} (h : tb.Alike s t d d') (v o : Interval L) :
    v.whatPortionOf tb o d' (some t) = v.whatPortionOf tb o d (some s) := by
  unfold Interval.whatPortionOf
  split
  · rfl
  · simp only [Option.getD_some]
    rw [Interval.overlap_put tb v o s t, h.1 o]
    cases hx : v.overlap tb o (some s) with
    | error e => rfl
    | ok x =>
      have hsch : x.schedule = s := by
        have := Interval.overlap_put tb v o s s
        rw [hx] at this
        simp only [Except.map, Except.ok.injEq] at this
        rw [this]; rfl
      have e1 : (x.put t).count tb d' = x.count tb d' (some t) := rfl
      have e2 : x.count tb d = x.count tb d (some s) := by
        unfold Interval.count
        simp only [Option.getD_none, Option.getD_some, hsch]
      simp only [Except.map, bind, Except.bind]
      rw [e1, e2, h.1 x]

def putEntry (t : Schedule L) (e : Option (Interval L × Int)) : Option (Interval L × Int) := e.map (fun e => (e.1.put t, e.2))

theorem Timeboard.Alike.loop {tb : Timeboard L} {s t : Schedule L} {d d' : Duty} (h : tb.Alike s t d d') (f : Freq) : ∀ os : List Int,
    periodLoop tb f d' t os = (periodLoop tb f d s os).map (List.map (putEntry t)) := by
  intro os
  induction os with
  | nil => rfl
  | cons o os ih =>
    unfold periodLoop
    rw [Timeboard.getInterval_put tb _ _ _ _ _ s t, ih]
    cases tb.getInterval (some (.period ⟨f, o⟩)) none none false "11" (some s) with
    | error e =>
      cases e <;> simp only [Except.map] <;> first | rfl | (cases periodLoop tb f d s os <;> rfl)
    | ok v =>
      have e1 : (v.put t).count tb d' (some t) = v.count tb d (some s) := by rw [← h.1 v]; rfl
      simp only [Except.map, e1]
      cases v.count tb d (some s) with
      | error e => rfl
      | ok c =>
        simp only
        cases periodLoop tb f d s os <;> rfl

theorem periodEntry_put (t : Schedule L) (es : List (Option (Interval L × Int))) (i : Int) :
    periodEntry (es.map (putEntry t)) i = (periodEntry es i).map (fun e => (e.1.put t, e.2)) := by
  have hp : pyGet? (es.map (putEntry t)) i = (pyGet? es i).map (putEntry t) := by
    unfold pyGet?
    simp only [List.length_map, List.getElem?_map]
    split
    · rfl
    · split <;> rfl
  unfold periodEntry
  rw [hp]
  cases pyGet? es i with
  | none => rfl
  | some x => cases x <;> rfl

theorem countPositive_put (t : Schedule L) : ∀ es : List (Option (Interval L × Int)), countPositive (es.map (putEntry t)) = countPositive es := by
  intro es
  induction es with
  | nil => rfl
  | cons e es ih =>
    cases e with
    | none => rfl
    | some e =>
      show (countPositive (es.map (putEntry t))).map _ = _
      rw [ih]; rfl

theorem Timeboard.Alike.body {tb : Timeboard L} {s t : Schedule L} {d d' : Duty} (h : tb.Alike s t d d') (v : Interval L) (f : Freq)
    (index : Frame) (a b : Time) : v.countPeriodsBody tb f d' t index a b = v.countPeriodsBody tb f d s index a b := by
  have hc : ∀ x : Interval L, (x.put t).count tb d' (some t) = x.count tb d (some s) := fun x => h.1 x
  have st : ∀ x : Interval L, (x.put t).endTime tb = x.endTime tb ∧ (x.put t).startTime tb = x.startTime tb := fun x => ⟨rfl, rfl⟩
  unfold Interval.countPeriodsBody
  rw [h.loop]
  cases periodLoop tb f d s index.ords with
  | error e => rfl
  | ok es =>
    simp only [Except.map, bind, Except.bind, periodEntry_put, h.1 v]
    cases index.getLoc a with
    | error e => rfl
    | ok i0 =>
      simp only
      cases index.getLoc b with
      | error e => rfl
      | ok i1 =>
        simp only
        cases periodEntry es i0 with
        | error e => rfl
        | ok e0 =>
          simp only
          split
          · rfl
          · rw [(st e0.1).1]
            cases timeOrTypeError (e0.1.endTime tb) with
            | error e => rfl
            | ok t0 =>
              simp only
              rw [Timeboard.getInterval_put tb _ _ _ _ _ s t]
              cases tb.getInterval (some (.pair (some a) (some t0))) none none false "11" (some s) with
              | error e => rfl
              | ok v0 =>
                simp only [Except.map, hc]
                cases v0.count tb d (some s) with
                | error e => rfl
                | ok c0 =>
                  simp only
                  cases pyDiv c0 e0.2 with
                  | error e => rfl
                  | ok q0 =>
                    simp only
                    cases periodEntry es i1 with
                    | error e => rfl
                    | ok e1 =>
                      simp only
                      rw [(st e1.1).2]
                      cases timeOrTypeError (e1.1.startTime tb) with
                      | error e => rfl
                      | ok t1 =>
                        simp only
                        rw [Timeboard.getInterval_put tb _ _ _ _ _ s t]
                        cases tb.getInterval (some (.pair (some t1) (some b))) none none false "11" (some s) with
                        | error e => rfl
                        | ok v1 =>
                          simp only [Except.map, hc]
                          rw [← List.map_take, ← List.map_drop, countPositive_put]

theorem Timeboard.Alike.periods {tb : Timeboard L} {s t : Schedule L} {d d' : Duty} (h : tb.Alike s t d d') (v : Interval L) (f : Freq) :
    v.countPeriods tb f d' (some t) = v.countPeriods tb f d (some s) := by
  unfold Interval.countPeriods
  split
  · rfl
  · split
    · rfl
    · simp only [Option.getD_some, bind, Except.bind]
      cases timeOrTypeError (v.startTime tb) with
      | error e => rfl
      | ok a =>
        simp only
        cases timeOrTypeError (v.endTime tb) with
        | error e => rfl
        | ok b =>
          simp only
          cases Frame.new f a b with
          | error e => rfl
          | ok index =>
            simp only
            have h0 := h.2 v 0
            have h1 := h.2 v (-1)
            unfold Interval.first Interval.last
            generalize v.nth tb 0 d' (some t) = x0 at *
            generalize v.nth tb 0 d (some s) = y0 at *
            generalize v.nth tb (-1) d' (some t) = x1 at *
            generalize v.nth tb (-1) d (some s) = y1 at *
            cases x0 with
            | error e =>
              cases y0 with
              | error e' => cases h0; cases e <;> rfl
              | ok w => cases h0
            | ok w =>
              cases y0 with
              | error e' => cases h0
              | ok w' =>
                cases x1 with
                | error e =>
                  cases y1 with
                  | error e' => cases h1; cases e <;> rfl
                  | ok u => cases h1
                | ok u =>
                  cases y1 with
                  | error e' => cases h1
                  | ok u' =>
                    simp only [Except.map, Except.ok.injEq] at h0 h1
                    simp only [Workshift.toTimestamp, h0, h1, h.body]

theorem Timeboard.Opposite.alike {tb : Timeboard L} {s t : Schedule L} (hs : tb.Owns s) (ht : tb.Owns t) (h : tb.Opposite s t) (d : Duty) :
    tb.Alike s t d d.swap := by
  constructor
  · intro v
    unfold Interval.count
    simp only [Option.getD_some, h.dutyIdx hs ht v d]
  · intro v n
    unfold Interval.nth
    simp only [Option.getD_some, h.dutyIdx hs ht v d]
    split
    · rfl
    · split
      · rfl
      · rfl
      · rename_i idx a b _
        by_cases hc : (if n ≥ 0 then a + n else b + n + 1) < a ∨ (if n ≥ 0 then a + n else b + n + 1) > b
        · rw [if_pos hc, if_pos hc]
        · rw [if_neg hc, if_neg hc]
          exact workshiftAt_loc_map tb _ _ _ _

/-- **C70**, for the ratios and the intervals: `count_periods` and `what_portion_of`, including the errors, and the workshifts of an
interval obtained from the timeboard or by overlap, which do not depend on the schedule at all. -/
theorem C70_ratios {tb : Timeboard L} {s t : Schedule L} (hs : tb.Owns s) (ht : tb.Owns t) (v o : Interval L) (f : Freq) (d : Duty) :
    (tb.Opposite s t → v.countPeriods tb f d.swap (some t) = v.countPeriods tb f d (some s) ∧
      v.whatPortionOf tb o d.swap (some t) = v.whatPortionOf tb o d (some s)) ∧
    ((∀ l ∈ tb.timeline.labels, t.selector l = s.selector l) → v.countPeriods tb f d (some t) = v.countPeriods tb f d (some s) ∧
      v.whatPortionOf tb o d (some t) = v.whatPortionOf tb o d (some s)) ∧
    (v.overlap tb o (some t)).map (fun x => (x.lo, x.hi, x.length, x.isVoid)) = (v.overlap tb o (some s)).map (fun x => (x.lo, x.hi, x.length, x.isVoid)) ∧
    (∀ ref length period clip closed, (tb.getInterval ref length period clip closed (some t)).map (fun x => (x.lo, x.hi, x.length, x.isVoid)) =
      (tb.getInterval ref length period clip closed (some s)).map (fun x => (x.lo, x.hi, x.length, x.isVoid))) := by
  have key : ∀ {s t : Schedule L} {d d' : Duty}, tb.Alike s t d d' → v.countPeriods tb f d' (some t) = v.countPeriods tb f d (some s) ∧
      v.whatPortionOf tb o d' (some t) = v.whatPortionOf tb o d (some s) := fun h => ⟨h.periods v f, h.portion v o⟩
  refine ⟨fun h => key (h.alike hs ht d), fun h => key ?_, ?_, ?_⟩
  · let m : Schedule L := Schedule.new tb.timeline "m" (fun l => !s.selector l)
    have hm : tb.Owns m := rfl
    have a := Timeboard.Opposite.alike hs hm (fun l _ => rfl) d
    have b := Timeboard.Opposite.alike ht hm (fun l hl => by show (!s.selector l) = !t.selector l; rw [h l hl]) d
    exact ⟨fun v => (b.1 v).symm.trans (a.1 v), fun v n => (b.2 v n).symm.trans (a.2 v n)⟩
  · rw [Interval.overlap_put tb v o s t]
    cases v.overlap tb o (some s) <;> rfl
  · intro ref length period clip closed
    rw [Timeboard.getInterval_put tb _ _ _ _ _ s t]
    cases tb.getInterval ref length period clip closed (some s) <;> rfl

/-- Short days (and days off) are the opposite of the long days. -/
def shortDays : Schedule Int := Schedule.new week.timeline "short" (fun l => decide (l ≤ 7))
theorem short_long : week.Owns shortDays ∧ week.Opposite longDays shortDays := by
  refine ⟨rfl, ?_⟩
  intro l _
  show decide (l ≤ 7) = !decide (7 < l)
  by_cases h : 7 < l
  · have : ¬ l ≤ 7 := by omega
    simp [h, this]
  · have : l ≤ 7 := by omega
    simp [h, this]
example : (do let v ← Interval.new week (0, 9); v.count week .on (some shortDays)) = .ok 4 ∧
    (do let v ← Interval.new week (0, 9); v.count week .off (some longDays)) = .ok 4 := by decide +kernel

example : (do let v ← Interval.new week (9, 20); v.countPeriods week fW .on (some shortDays)) = .ok (3 / 2 : Rat) ∧
    (do let v ← Interval.new week (9, 20); v.countPeriods week fW .off (some longDays)) = .ok (3 / 2 : Rat) := by decide +kernel
example : (do let v ← Interval.new week (1, 3); let o ← Interval.new week (0, 9); v.whatPortionOf week o .on (some shortDays)) = .ok (1 / 4 : Rat) := by
  decide +kernel

end TB
