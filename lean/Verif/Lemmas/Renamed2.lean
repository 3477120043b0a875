import Verif.Lemmas.Renamed
/-! Timeboards with other labels: queries. -/
namespace TB
variable {L M : Type} {g : L → M}

theorem Timeline.afterLoop_relabel (tl : Timeline L) (t : Time) : ∀ (k : Nat) (c : Int), (tl.relabel g).afterLoop t k c = tl.afterLoop t k c
  | 0, _ => rfl
  | k + 1, c => by
    simp only [Timeline.afterLoop]
    rw [show (tl.relabel g).wsRef c = tl.wsRef c from rfl]
    simp only [Timeline.afterLoop_relabel tl t k]

theorem Timeline.beforeLoop_relabel (tl : Timeline L) (t : Time) : ∀ (k : Nat) (c : Int), (tl.relabel g).beforeLoop t k c = tl.beforeLoop t k c
  | 0, _ => rfl
  | k + 1, c => by
    simp only [Timeline.beforeLoop]
    rw [show (tl.relabel g).wsRef c = tl.wsRef c from rfl]
    simp only [Timeline.beforeLoop_relabel tl t k]

theorem Timeline.label_relabel (tl : Timeline L) (n : Int) : (tl.relabel g).label n = (tl.label n).map g := by
  unfold Timeline.label
  have : pyGet? (tl.relabel g).labels n = (pyGet? tl.labels n).map g := by
    unfold pyGet?
    simp only [Timeline.relabel, List.length_map, List.getElem?_map]
    split
    · rfl
    · split <;> rfl
  rw [this]
  cases pyGet? tl.labels n <;> rfl

variable {tb : Timeboard L} {tb' : Timeboard M}

namespace Timeboard.Sim

theorem len (h : tb.Sim g tb') : tb'.timeline.len = tb.timeline.len := by rw [h.timeline]; rfl

theorem locate (h : tb.Sim g tb') (t : Time) (r : ByRef) : tb'.locate t r = tb.locate t r := by
  unfold Timeboard.locate Timeboard.startTime Timeboard.endTime
  rw [h.timeline]
  cases r with
  | none =>
    simp only
    rw [Timeline.wsPosition_relabel]
    cases tb.timeline.wsPosition t with
    | ok p => rfl
    | error e => cases e <;> rfl
  | before =>
    simp only
    rw [show (tb.timeline.relabel g).posByRefBefore t = tb.timeline.posByRefBefore t by
      unfold Timeline.posByRefBefore
      simp only [Timeline.beforeLoop_relabel]
      rfl]
    cases tb.timeline.posByRefBefore t with
    | ok p => rfl
    | error e => cases e <;> rfl
  | after =>
    simp only
    rw [show (tb.timeline.relabel g).posByRefAfter t = tb.timeline.posByRefAfter t by
      unfold Timeline.posByRefAfter
      simp only [Timeline.afterLoop_relabel]
      rfl]
    cases tb.timeline.posByRefAfter t with
    | ok p => rfl
    | error e => cases e <;> rfl

theorem workshift (h : tb.Sim g tb') (k : Int) {o : Option (Schedule L)} {o' : Option (Schedule M)} (ho : OptRenamed g o o') :
    Corresponds (Workshift.Renamed g) (Workshift.new tb k o) (Workshift.new tb' k o') := by
  unfold Workshift.new
  rw [h.timeline, Timeline.label_relabel]
  cases tb.timeline.label k with
  | error e => exact .error _
  | ok l => exact .ok ⟨rfl, rfl, ho.getD h.schedule⟩

theorem getWorkshift (h : tb.Sim g tb') (t : Time) {o : Option (Schedule L)} {o' : Option (Schedule M)} (ho : OptRenamed g o o') :
    Corresponds (Workshift.Renamed g) (tb.getWorkshift t o) (tb'.getWorkshift t o') := by
  unfold Timeboard.getWorkshift
  rw [h.locate]
  cases tb.locate t .none with
  | error e => exact .error e
  | ok loc =>
    simp only
    cases loc.pos with
    | none => exact .error _
    | some p => exact h.workshift p ho

theorem interval (h : tb.Sim g tb') (b : Int × Int) (void : Bool) {o : Option (Schedule L)} {o' : Option (Schedule M)} (ho : OptRenamed g o o') :
    Corresponds (Interval.Renamed g) (Interval.make tb b o void) (Interval.make tb' b o' void) := by
  unfold Interval.make
  have hb : ∀ k, handleBound tb' k = handleBound tb k := by intro k; unfold handleBound; rw [h.len]
  rw [hb, hb]
  cases handleBound tb b.1 with
  | error e => cases handleBound tb b.2 <;> exact .error _
  | ok x =>
    cases handleBound tb b.2 with
    | error e => exact .error _
    | ok y =>
      simp only
      split
      · split
        · exact .error _
        · exact .ok ⟨rfl, rfl, rfl, rfl, ho.getD h.schedule⟩
      · split
        · exact .error _
        · exact .ok ⟨rfl, rfl, rfl, rfl, ho.getD h.schedule⟩

theorem locsFromReference (h : tb.Sim g tb') (ref : Option IvlRef) (a b : Bool) : tb'.locsFromReference ref a b = tb.locsFromReference ref a b := by
  unfold Timeboard.locsFromReference
  simp only [h.len, h.locate]

theorem locsByPeriod (h : tb.Sim g tb') (p : Period) (c a b : Bool) : tb'.locsByPeriod p c a b = tb.locsByPeriod p c a b := by
  unfold Timeboard.locsByPeriod
  simp only [h.len, h.locate]

theorem locsByLength (h : tb.Sim g tb') (ref : Option IvlRef) (n : Int) (a b : Bool) : tb'.locsByLength ref n a b = tb.locsByLength ref n a b := by
  unfold Timeboard.locsByLength
  simp only [h.len, h.locate]

theorem intervalLocs (h : tb.Sim g tb') (ref : Option IvlRef) (n : Option Int) (p : Option Freq) (c a b : Bool) :
    tb'.intervalLocs ref n p c a b = tb.intervalLocs ref n p c a b := by
  unfold Timeboard.intervalLocs
  cases n with
  | none =>
    cases p with
    | none =>
      simp only [h.locsFromReference, h.locsByPeriod]
    | some f =>
      simp only [h.locsByPeriod]
  | some n =>
    cases p with
    | none => simp only [h.locsByLength]
    | some f => rfl

theorem getInterval (h : tb.Sim g tb') (ref : Option IvlRef) (n : Option Int) (p : Option Freq) (c : Bool) (cl : String) {o : Option (Schedule L)} {o' : Option (Schedule M)}
    (ho : OptRenamed g o o') : Corresponds (Interval.Renamed g) (tb.getInterval ref n p c cl o) (tb'.getInterval ref n p c cl o') := by
  unfold Timeboard.getInterval
  split
  · exact .error _
  · simp only [h.intervalLocs]
    cases tb.intervalLocs ref n p c (decide (cl = "00" ∨ cl = "01")) (decide (cl = "00" ∨ cl = "10")) with
    | error e => exact .error _
    | ok locs =>
      simp only
      unfold Timeboard.finishInterval
      split
      · exact .error _
      · generalize locs.1.pos = x
        generalize locs.2.pos = y
        cases x with
        | none =>
          cases y with
          | none =>
            simp only
            split <;> exact .error _
          | some y => exact .error _
        | some x =>
          cases y with
          | none => exact .error _
          | some y => exact h.interval (x, y) false ho

theorem call1 (h : tb.Sim g tb') (ref : IvlRef) : Corresponds (CallResult.Renamed g) (tb.call1 ref) (tb'.call1 ref) := by
  unfold Timeboard.call1
  have hi : Corresponds (CallResult.Renamed g) (match tb.getInterval (some ref) with | .error e => .error e | .ok i => .ok (.interval i))
      (match tb'.getInterval (some ref) with | .error e => .error e | .ok i => .ok (.interval i)) := by
    have := h.getInterval (some ref) none none true "11" .none
    generalize tb.getInterval (some ref) none none true "11" none = x at this ⊢
    generalize tb'.getInterval (some ref) none none true "11" none = y at this ⊢
    cases this with
    | error e => exact .error e
    | ok r => exact .ok (.interval r)
  simp only
  generalize ref.toTime? = o
  cases o with
  | none => exact hi
  | some t =>
    simp only
    have := h.getWorkshift t .none
    generalize tb.getWorkshift t none = x at this ⊢
    generalize tb'.getWorkshift t none = y at this ⊢
    cases this with
    | ok r => exact .ok (.workshift r)
    | error e =>
      cases e
      case outOfBounds => exact .error _
      all_goals exact hi

theorem callN (h : tb.Sim g tb') (ref : Option IvlRef) (n : Option Int) (p : Option Freq) (c : Bool) (cl : String) {o : Option (Schedule L)} {o' : Option (Schedule M)}
    (ho : OptRenamed g o o') : Corresponds (CallResult.Renamed g) (tb.callN ref n p c cl o) (tb'.callN ref n p c cl o') := by
  unfold Timeboard.callN
  have := h.getInterval ref n p c cl ho
  generalize tb.getInterval ref n p c cl o = x at this ⊢
  generalize tb'.getInterval ref n p c cl o' = y at this ⊢
  cases this with
  | error e => exact .error e
  | ok r => exact .ok (.interval r)

theorem addSchedule (h : tb.Sim g tb') (name : String) {sel0 : L → Bool} {sel : M → Bool} (hs : ∀ x, sel (g x) = sel0 x) :
    Corresponds (fun p q => p.1.Renamed g q.1 ∧ p.2.Sim g q.2) (tb.addSchedule name sel0) (tb'.addSchedule name sel) := by
  unfold Timeboard.addSchedule
  have hany : ∀ {xs : List (String × Schedule L)} {ys : List (String × Schedule M)}, ListRenamed (fun p q => q.1 = p.1 ∧ p.2.Renamed g q.2) xs ys →
      ys.any (fun p => p.1 == name) = xs.any (fun p => p.1 == name) := by
    intro xs ys hl
    induction hl with
    | nil => rfl
    | cons r _ ih => simp only [List.any_cons, ih, r.1]
  have happ : ∀ {xs : List (String × Schedule L)} {ys : List (String × Schedule M)} {x y}, ListRenamed (fun p q => q.1 = p.1 ∧ p.2.Renamed g q.2) xs ys → (y.1 = x.1 ∧ x.2.Renamed g y.2) →
      ListRenamed (fun p q => q.1 = p.1 ∧ p.2.Renamed g q.2) (xs ++ [x]) (ys ++ [y]) := by
    intro xs ys x y hl hxy
    induction hl with
    | nil => exact .cons hxy .nil
    | cons r _ ih => exact .cons r ih
  rw [hany h.schedules]
  split
  · exact .error _
  · simp only [h.timeline]
    have := Schedule.new_renamed tb.timeline name sel sel0 hs
    exact .ok ⟨this, rfl, h.schedule, happ h.schedules ⟨rfl, this⟩, h.source⟩

theorem dropSchedule (h : tb.Sim g tb') {s : Schedule L} {s' : Schedule M} (hs : s.Renamed g s') :
    Corresponds (Timeboard.Sim g) (tb.dropSchedule s) (tb'.dropSchedule s') := by
  unfold Timeboard.dropSchedule
  have hany : ∀ {xs : List (String × Schedule L)} {ys : List (String × Schedule M)}, ListRenamed (fun p q => q.1 = p.1 ∧ p.2.Renamed g q.2) xs ys →
      ys.any (fun p => p.1 == s.name) = xs.any (fun p => p.1 == s.name) := by
    intro xs ys hl
    induction hl with
    | nil => rfl
    | cons r _ ih => simp only [List.any_cons, ih, r.1]
  have hfil : ∀ {xs : List (String × Schedule L)} {ys : List (String × Schedule M)}, ListRenamed (fun p q => q.1 = p.1 ∧ p.2.Renamed g q.2) xs ys →
      ListRenamed (fun p q => q.1 = p.1 ∧ p.2.Renamed g q.2) (xs.filter (fun p => !(p.1 == s.name))) (ys.filter (fun p => !(p.1 == s.name))) := by
    intro xs ys hl
    induction hl with
    | nil => exact .nil
    | cons r _ ih =>
      simp only [List.filter_cons, r.1]
      split
      · exact .cons r ih
      · exact ih
  rw [hs.name, hany h.schedules]
  split
  · exact .ok ⟨h.timeline, h.schedule, hfil h.schedules, h.source⟩
  · exact .error _

theorem toDataframe (h : tb.Sim g tb') (a b : Option Int) : tb'.toDataframe a b = (tb.toDataframe a b).map (List.map (TbRow.map g)) := by
  unfold Timeboard.toDataframe
  simp only [h.len]
  split
  · rfl
  · have hrows : ∀ (as : List Int) (bs cs : List Time) (ds : List Int) (es : List Time) (ls : List L),
        mkRows as bs cs ds es (ls.map g) = (mkRows as bs cs ds es ls).map (List.map (fun r => { loc := r.loc, wsRef := r.wsRef, start := r.start, duration := r.duration, stop := r.stop, label := g r.label })) := by
      intro as
      induction as with
      | nil =>
        intro bs cs ds es ls
        cases bs <;> cases cs <;> cases ds <;> cases es <;> cases ls <;> rfl
      | cons a as ih =>
        intro bs cs ds es ls
        cases bs <;> cases cs <;> cases ds <;> cases es <;> cases ls <;> try rfl
        rename_i b bs c cs d ds e es l ls
        simp only [List.map_cons, mkRows, ih bs cs ds es ls]
        cases mkRows as bs cs ds es ls <;> rfl
    have htl : ∀ x y, (tb.timeline.relabel g).toDataframe x y = (tb.timeline.toDataframe x y).map (List.map (fun r => { loc := r.loc, wsRef := r.wsRef, start := r.start, duration := r.duration, stop := r.stop, label := g r.label })) := by
      intro x y
      unfold Timeline.toDataframe
      split
      · rename_i hc
        rw [if_pos (show ¬ (0 ≤ x ∧ x < tb.timeline.len ∧ 0 ≤ y ∧ y < tb.timeline.len) from hc)]; rfl
      · rename_i hc
        rw [if_neg (show ¬ ¬ (0 ≤ x ∧ x < tb.timeline.len ∧ 0 ≤ y ∧ y < tb.timeline.len) from hc)]
        simp only
        rw [show List.drop x.toNat (List.take (y + 1).toNat (tb.timeline.relabel g).labels) = (List.drop x.toNat (List.take (y + 1).toNat tb.timeline.labels)).map g by
          rw [List.map_drop, List.map_take]; rfl]
        exact hrows _ _ _ _ _ _
    rw [h.timeline, htl]
    cases tb.timeline.toDataframe (a.getD 0) (b.getD (tb.timeline.len - 1)) with
    | error e => rfl
    | ok rows =>
      simp only [Except.map, List.map_map]
      congr 1
      apply List.map_congr_left
      intro r _
      simp only [Function.comp, TbRow.map]
      congr 1
      have : ∀ {xs : List (String × Schedule L)} {ys : List (String × Schedule M)}, ListRenamed (fun p q => q.1 = p.1 ∧ p.2.Renamed g q.2) xs ys →
          ys.map (fun p => (p.1, p.2.selector (g r.label))) = xs.map (fun p => (p.1, p.2.selector r.label)) := by
        intro xs ys hl
        induction hl with
        | nil => rfl
        | cons r _ ih => simp only [List.map_cons, ih, r.1, r.2.selector]
      exact this h.schedules

end Timeboard.Sim

/-! ### Workshifts -/

section
variable {w : Workshift L} {w' : Workshift M} {o : Option (Schedule L)} {o' : Option (Schedule M)}

theorem Schedule.Renamed.isOnDuty (h : tb.Sim g tb') {s : Schedule L} {s' : Schedule M} (hs : s.Renamed g s') (k : Int) :
    s'.isOnDuty tb'.timeline k = s.isOnDuty tb.timeline k ∧ s'.isOffDuty tb'.timeline k = s.isOffDuty tb.timeline k := by
  have : s'.isOnDuty tb'.timeline k = s.isOnDuty tb.timeline k := by
    unfold Schedule.isOnDuty
    rw [h.timeline, Timeline.label_relabel]
    cases tb.timeline.label k with
    | error e => rfl
    | ok l => exact congrArg Except.ok (hs.selector l)
  exact ⟨this, by unfold Schedule.isOffDuty; rw [this]⟩

theorem Workshift.Renamed.times (h : tb.Sim g tb') (hw : w.Renamed g w') :
    w'.startTime tb' = w.startTime tb ∧ w'.endTime tb' = w.endTime tb ∧ w'.duration tb' = w.duration tb ∧ w'.toTimestamp tb' = w.toTimestamp tb := by
  unfold Workshift.startTime Workshift.endTime Workshift.duration Workshift.toTimestamp
  rw [hw.loc, h.timeline]
  exact ⟨rfl, rfl, rfl, rfl⟩

theorem Workshift.Renamed.isOnDuty (h : tb.Sim g tb') (hw : w.Renamed g w') (ho : OptRenamed g o o') :
    w'.isOnDuty tb' o' = w.isOnDuty tb o ∧ w'.isOffDuty tb' o' = w.isOffDuty tb o := by
  unfold Workshift.isOnDuty Workshift.isOffDuty
  rw [hw.loc]
  exact (ho.getD hw.schedule).isOnDuty h w.loc

theorem Workshift.Renamed.dutyIndex (h : tb.Sim g tb') (hw : w.Renamed g w') (d : Duty) {s : Schedule L} {s' : Schedule M} (hs : s.Renamed g s') :
    w'.dutyIndex tb' d s' = w.dutyIndex tb d s := by
  unfold Workshift.dutyIndex
  rw [(hw.isOnDuty h (.some hs)).1, (hw.isOnDuty h (.some hs)).2, hs.onIdx, hs.offIdx, h.timeline]
  rfl

theorem Timeboard.Sim.workshiftAt (h : tb.Sim g tb') (idx : List Int) (i : Int) {s : Schedule L} {s' : Schedule M} (hs : s.Renamed g s') :
    Corresponds (Workshift.Renamed g) (TB.workshiftAt tb idx i s) (TB.workshiftAt tb' idx i s') := by
  unfold TB.workshiftAt
  cases pyGet? idx i with
  | none => exact .error _
  | some p => exact h.workshift p (.some hs)

theorem Workshift.Renamed.rollforward (h : tb.Sim g tb') (hw : w.Renamed g w') (n : Int) (d : Duty) (ho : OptRenamed g o o') :
    Corresponds (Workshift.Renamed g) (w.rollforward tb n d o) (w'.rollforward tb' n d o') := by
  unfold Workshift.rollforward
  simp only [hw.dutyIndex h d (ho.getD hw.schedule), hw.loc]
  refine (Corresponds.of_same _).bind (fun a b e => ?_)
  subst e
  split
  · exact .error _
  · exact h.workshiftAt _ _ (ho.getD hw.schedule)

theorem Workshift.Renamed.rollback (h : tb.Sim g tb') (hw : w.Renamed g w') (n : Int) (d : Duty) (ho : OptRenamed g o o') :
    Corresponds (Workshift.Renamed g) (w.rollback tb n d o) (w'.rollback tb' n d o') := by
  unfold Workshift.rollback
  simp only [hw.dutyIndex h d (ho.getD hw.schedule), hw.loc]
  refine (Corresponds.of_same _).bind (fun a b e => ?_)
  subst e
  split
  · exact .error _
  · exact h.workshiftAt _ _ (ho.getD hw.schedule)

theorem Workshift.Renamed.worktime (h : tb.Sim g tb') (hw : w.Renamed g w') {num : L → Option Rat} {num' : M → Option Rat} (hn : ∀ x, num' (g x) = num x) (d : Duty) (ho : OptRenamed g o o') :
    w'.worktime tb' num' d o' = w.worktime tb num d o := by
  unfold Workshift.worktime
  have hs := ho.getD hw.schedule
  simp only [(hw.isOnDuty h (.some hs)).1, (hw.isOnDuty h (.some hs)).2, h.source, hw.label, hn, (hw.times h).2.2.1]

end

/-! ### Intervals -/

section
variable {v u : Interval L} {v' u' : Interval M} {o : Option (Schedule L)} {o' : Option (Schedule M)}

theorem Interval.Renamed.dutyIdx (h : tb.Sim g tb') (hv : v.Renamed g v') (d : Duty) {s : Schedule L} {s' : Schedule M} (hs : s.Renamed g s') :
    v'.dutyIdx tb' d s' = v.dutyIdx tb d s := by
  have hf : ∀ idx, v'.findBounds idx = v.findBounds idx := by intro idx; unfold Interval.findBounds; rw [hv.lo, hv.hi]
  unfold Interval.dutyIdx
  cases d <;> simp only [hf, hs.onIdx, hs.offIdx, hv.lo, hv.hi, h.timeline]
  rfl

theorem Interval.Renamed.times (h : tb.Sim g tb') (hv : v.Renamed g v') : v'.startTime tb' = v.startTime tb ∧ v'.endTime tb' = v.endTime tb ∧ v'.len = v.len := by
  unfold Interval.startTime Interval.endTime Interval.len
  rw [hv.lo, hv.hi, hv.isVoid, hv.length, h.timeline]
  exact ⟨rfl, rfl, rfl⟩

theorem Interval.Renamed.workshifts (h : tb.Sim g tb') (hv : v.Renamed g v') (d : Duty) (ho : OptRenamed g o o') :
    Corresponds (ListRenamed (Workshift.Renamed g)) (v.workshifts tb d o) (v'.workshifts tb' d o') := by
  unfold Interval.workshifts
  have hs := ho.getD hv.schedule
  simp only [hv.isVoid, hv.dutyIdx h d hs]
  split
  · exact .ok .nil
  · cases v.dutyIdx tb d (o.getD v.schedule) with
    | error e => exact .error _
    | ok r =>
      obtain ⟨idx, b⟩ := r
      cases b with
      | none => exact .ok .nil
      | some b => exact Corresponds.mapM (fun i => h.workshift i (.some hs)) _

theorem Interval.Renamed.nth (h : tb.Sim g tb') (hv : v.Renamed g v') (n : Int) (d : Duty) (ho : OptRenamed g o o') :
    Corresponds (Workshift.Renamed g) (v.nth tb n d o) (v'.nth tb' n d o') := by
  unfold Interval.nth
  have hs := ho.getD hv.schedule
  simp only [hv.isVoid, hv.dutyIdx h d hs]
  split
  · exact .error _
  · cases v.dutyIdx tb d (o.getD v.schedule) with
    | error e => exact .error _
    | ok r =>
      obtain ⟨idx, b⟩ := r
      cases b with
      | none => exact .error _
      | some b =>
        simp only
        generalize (if n ≥ 0 then b.1 + n else b.2 + n + 1) = i
        split
        · exact .error _
        · exact h.workshiftAt _ _ hs

theorem Interval.Renamed.count (h : tb.Sim g tb') (hv : v.Renamed g v') (d : Duty) (ho : OptRenamed g o o') : v'.count tb' d o' = v.count tb d o := by
  unfold Interval.count
  simp only [hv.isVoid, hv.dutyIdx h d (ho.getD hv.schedule)]

theorem Interval.Renamed.overlap (h : tb.Sim g tb') (hv : v.Renamed g v') (hu : u.Renamed g u') (ho : OptRenamed g o o') :
    Corresponds (Interval.Renamed g) (v.overlap tb u o) (v'.overlap tb' u' o') := by
  unfold Interval.overlap
  have hs := ho.getD hv.schedule
  simp only [hv.isVoid, hv.lo, hv.hi, hu.lo, hu.hi]
  split
  · exact h.interval _ true (.some hs)
  · have h1 := h.interval (max v.lo u.lo, min v.hi u.hi) false (.some hs)
    have h2 := h.interval (max v.lo u.lo, min v.hi u.hi) true (.some hs)
    unfold Interval.new Interval.newVoid
    generalize Interval.make tb (max v.lo u.lo, min v.hi u.hi) (some (o.getD v.schedule)) false = x at h1 ⊢
    generalize Interval.make tb' (max v.lo u.lo, min v.hi u.hi) (some (o'.getD v'.schedule)) false = y at h1 ⊢
    cases h1 with
    | ok r => exact .ok r
    | error e =>
      cases e
      case voidInterval => exact h2
      all_goals exact .error _

theorem Interval.Renamed.whatPortionOf (h : tb.Sim g tb') (hv : v.Renamed g v') (hu : u.Renamed g u') (d : Duty) (ho : OptRenamed g o o') :
    v'.whatPortionOf tb' u' d o' = v.whatPortionOf tb u d o := by
  unfold Interval.whatPortionOf
  have hs := ho.getD hv.schedule
  rw [hv.isVoid]
  split
  · rfl
  · apply Corresponds.same
    refine (hv.overlap h hu (.some hs)).bind (fun x y hxy => ?_)
    rw [hxy.count h d .none]
    refine (Corresponds.of_same _).bind (fun c c' e => ?_)
    subst e
    split
    · exact .ok rfl
    · rw [hu.count h d (.some hs)]
      exact Corresponds.of_same _

theorem Interval.Renamed.totalDuration (h : tb.Sim g tb') (hv : v.Renamed g v') (d : Duty) (ho : OptRenamed g o o') : v'.totalDuration tb' d o' = v.totalDuration tb d o := by
  unfold Interval.totalDuration
  simp only [hv.isVoid, hv.dutyIdx h d (ho.getD hv.schedule)]
  split
  · rfl
  · generalize v.dutyIdx tb d (o.getD v.schedule) = x
    cases x with
    | error e => rfl
    | ok r =>
      obtain ⟨idx, b⟩ := r
      cases b with
      | none => rfl
      | some b =>
        simp only [h.timeline]
        rw [show (tb.timeline.relabel g).durationsFor (slice idx b.1 b.2) = tb.timeline.durationsFor (slice idx b.1 b.2) from rfl]

theorem sumNums_renamed {num : L → Option Rat} {num' : M → Option Rat} (hn : ∀ x, num' (g x) = num x) : ∀ {xs : List L} {ys : List M}, ListRenamed (fun x y => y = g x) xs ys → sumNums num' ys = sumNums num xs := by
  intro xs ys h
  induction h with
  | nil => rfl
  | @cons x y xs ys r _ ih =>
    subst r
    simp only [sumNums, hn, ih]

theorem Interval.Renamed.sumLabels (h : tb.Sim g tb') (hv : v.Renamed g v') {num : L → Option Rat} {num' : M → Option Rat} (hn : ∀ x, num' (g x) = num x) (d : Duty) (ho : OptRenamed g o o') :
    v'.sumLabels tb' num' d o' = v.sumLabels tb num d o := by
  unfold Interval.sumLabels
  simp only [hv.dutyIdx h d (ho.getD hv.schedule)]
  generalize v.dutyIdx tb d (o.getD v.schedule) = x
  cases x with
  | error e => rfl
  | ok r =>
    obtain ⟨idx, b⟩ := r
    cases b with
    | none => rfl
    | some b =>
      simp only
      have : Corresponds (ListRenamed (fun x y => y = g x)) ((slice idx b.1 b.2).mapM (fun i => tb.timeline.label i)) ((slice idx b.1 b.2).mapM (fun i => tb'.timeline.label i)) := by
        apply Corresponds.mapM
        intro i
        rw [h.timeline, Timeline.label_relabel]
        cases tb.timeline.label i with
        | error e => exact .error _
        | ok l => exact .ok rfl
      generalize (slice idx b.1 b.2).mapM (fun i => tb.timeline.label i) = x at this ⊢
      generalize (slice idx b.1 b.2).mapM (fun i => tb'.timeline.label i) = y at this ⊢
      cases this with
      | error e => rfl
      | ok r => exact sumNums_renamed hn r

theorem Interval.Renamed.worktime (h : tb.Sim g tb') (hv : v.Renamed g v') {num : L → Option Rat} {num' : M → Option Rat} (hn : ∀ x, num' (g x) = num x) (d : Duty) (ho : OptRenamed g o o') :
    v'.worktime tb' num' d o' = v.worktime tb num d o := by
  unfold Interval.worktime
  rw [hv.isVoid, h.source, hv.sumLabels h hn d ho, hv.totalDuration h d ho]

theorem periodLoop_renamed (h : tb.Sim g tb') (f : Freq) (d : Duty) {s : Schedule L} {s' : Schedule M} (hs : s.Renamed g s') : ∀ os : List Int,
    Corresponds (ListRenamed (fun x y => (x = none ∧ y = none) ∨ ∃ v v' c, x = some (v, c) ∧ y = some (v', c) ∧ v.Renamed g v')) (periodLoop tb f d s os) (periodLoop tb' f d s' os)
  | [] => .ok .nil
  | p :: os => by
    have hi := h.getInterval (some (.period ⟨f, p⟩)) none none false "11" (.some hs)
    have ih := periodLoop_renamed h f d hs os
    unfold periodLoop
    generalize tb.getInterval (some (.period ⟨f, p⟩)) none none false "11" (some s) = x at hi ⊢
    generalize tb'.getInterval (some (.period ⟨f, p⟩)) none none false "11" (some s') = y at hi ⊢
    cases hi with
    | error e =>
      cases e
      case outOfBounds => exact ih.map (fun a b r => .cons (.inl ⟨rfl, rfl⟩) r)
      all_goals exact .error _
    | @ok v v' r =>
      simp only
      rw [r.count h d (.some hs)]
      cases v.count tb d (some s) with
      | error e => exact .error _
      | ok c => exact ih.map (fun a b q => .cons (.inr ⟨v, v', c, rfl, rfl, r⟩) q)

/-- Entries of the periods correspond. -/
def EntryRenamed (g : L → M) (x : Option (Interval L × Int)) (y : Option (Interval M × Int)) : Prop :=
  (x = none ∧ y = none) ∨ ∃ v v' c, x = some (v, c) ∧ y = some (v', c) ∧ v.Renamed g v'

theorem ListRenamed.get? {α β : Type} {R : α → β → Prop} {xs : List α} {ys : List β} (h : ListRenamed R xs ys) :
    xs.length = ys.length ∧ ∀ i : Nat, (xs[i]? = none ∧ ys[i]? = none) ∨ ∃ x y, xs[i]? = some x ∧ ys[i]? = some y ∧ R x y := by
  induction h with
  | nil => exact ⟨rfl, fun i => .inl ⟨rfl, rfl⟩⟩
  | cons r _ ih =>
    refine ⟨by simp [ih.1], fun i => ?_⟩
    cases i with
    | zero => exact .inr ⟨_, _, rfl, rfl, r⟩
    | succ i => exact ih.2 i

theorem ListRenamed.take {α β : Type} {R : α → β → Prop} {xs : List α} {ys : List β} (h : ListRenamed R xs ys) : ∀ n, ListRenamed R (xs.take n) (ys.take n) := by
  induction h with
  | nil => intro n; simp only [List.take_nil]; exact .nil
  | cons r _ ih =>
    intro n
    cases n with
    | zero => exact .nil
    | succ n => exact .cons r (ih n)

theorem ListRenamed.drop {α β : Type} {R : α → β → Prop} {xs : List α} {ys : List β} (h : ListRenamed R xs ys) : ∀ n, ListRenamed R (xs.drop n) (ys.drop n) := by
  induction h with
  | nil => intro n; simp only [List.drop_nil]; exact .nil
  | cons r q ih =>
    intro n
    cases n with
    | zero => exact .cons r q
    | succ n => exact ih n

theorem periodEntry_renamed {es : List (Option (Interval L × Int))} {es' : List (Option (Interval M × Int))} (h : ListRenamed (EntryRenamed g) es es') (i : Int) :
    Corresponds (fun x y => y.2 = x.2 ∧ x.1.Renamed g y.1) (periodEntry es i) (periodEntry es' i) := by
  obtain ⟨h1, h2⟩ := h.get?
  have : (pyGet? es i = none ∧ pyGet? es' i = none) ∨ ∃ x y, pyGet? es i = some x ∧ pyGet? es' i = some y ∧ EntryRenamed g x y := by
    unfold pyGet?
    rw [h1]
    split
    · exact h2 _
    · split
      · exact h2 _
      · exact .inl ⟨rfl, rfl⟩
  unfold periodEntry
  rcases this with ⟨e1, e2⟩ | ⟨x, y, e1, e2, hxy⟩
  · rw [e1, e2]; exact .error _
  · rw [e1, e2]
    rcases hxy with ⟨rfl, rfl⟩ | ⟨v, v', c, rfl, rfl, r⟩
    · exact .error _
    · exact .ok ⟨rfl, r⟩

theorem countPositive_renamed {es : List (Option (Interval L × Int))} {es' : List (Option (Interval M × Int))} (h : ListRenamed (EntryRenamed g) es es') :
    countPositive es' = countPositive es := by
  induction h with
  | nil => rfl
  | cons r _ ih =>
    rcases r with ⟨rfl, rfl⟩ | ⟨v, v', c, rfl, rfl, _⟩
    · rfl
    · simp only [countPositive, ih]

theorem Interval.Renamed.countPeriodsBody (h : tb.Sim g tb') (hv : v.Renamed g v') (f : Freq) (d : Duty) {s : Schedule L} {s' : Schedule M} (hs : s.Renamed g s') (index : Frame) (a b : Time) :
    Corresponds (fun x y => y = x) (v.countPeriodsBody tb f d s index a b) (v'.countPeriodsBody tb' f d s' index a b) := by
  unfold Interval.countPeriodsBody
  refine (periodLoop_renamed h f d hs index.ords).bind (fun es es' hes => ?_)
  refine (Corresponds.of_same _).bind (fun i0 _ e => ?_)
  subst e
  refine (Corresponds.of_same _).bind (fun i1 _ e => ?_)
  subst e
  split
  · refine (periodEntry_renamed hes _).bind (fun x y hxy => ?_)
    rw [hv.count h d (.some hs), hxy.1]
    exact Corresponds.of_same _
  · refine (periodEntry_renamed hes _).bind (fun x y hxy => ?_)
    rw [(hxy.2.times h).2.1, hxy.1]
    refine (Corresponds.of_same _).bind (fun t _ e => ?_)
    subst e
    refine (h.getInterval _ _ _ _ _ (.some hs)).bind (fun v0 v0' h0 => ?_)
    rw [h0.count h d (.some hs)]
    refine (Corresponds.of_same _).bind (fun c0 _ e => ?_)
    subst e
    refine (Corresponds.of_same _).bind (fun q0 _ e => ?_)
    subst e
    refine (periodEntry_renamed hes _).bind (fun x1 y1 hxy1 => ?_)
    rw [(hxy1.2.times h).1, hxy1.1]
    refine (Corresponds.of_same _).bind (fun t1 _ e => ?_)
    subst e
    refine (h.getInterval _ _ _ _ _ (.some hs)).bind (fun v1 v1' h1 => ?_)
    rw [h1.count h d (.some hs)]
    refine (Corresponds.of_same _).bind (fun c1 _ e => ?_)
    subst e
    refine (Corresponds.of_same _).bind (fun q1 _ e => ?_)
    subst e
    split
    · rw [countPositive_renamed ((hes.take _).drop _)]
      exact Corresponds.of_same _
    · exact .ok rfl

theorem Interval.Renamed.countPeriods (h : tb.Sim g tb') (hv : v.Renamed g v') (f : Freq) (d : Duty) (ho : OptRenamed g o o') : v'.countPeriods tb' f d o' = v.countPeriods tb f d o := by
  apply Corresponds.same
  unfold Interval.countPeriods
  have hs := ho.getD hv.schedule
  rw [hv.isVoid]
  split
  · exact .ok rfl
  · split
    · exact .error _
    · rw [(hv.times h).1, (hv.times h).2.1]
      refine (Corresponds.of_same _).bind (fun a _ e => ?_)
      subst e
      refine (Corresponds.of_same _).bind (fun b _ e => ?_)
      subst e
      refine (Corresponds.of_same _).bind (fun index _ e => ?_)
      subst e
      have h1 := hv.nth h 0 d (.some hs)
      have h2 := hv.nth h (-1) d (.some hs)
      unfold Interval.first Interval.last
      simp only
      generalize v.nth tb 0 d (some (o.getD v.schedule)) = x1 at h1 ⊢
      generalize v'.nth tb' 0 d (some (o'.getD v'.schedule)) = y1 at h1 ⊢
      generalize v.nth tb (-1) d (some (o.getD v.schedule)) = x2 at h2 ⊢
      generalize v'.nth tb' (-1) d (some (o'.getD v'.schedule)) = y2 at h2 ⊢
      cases h1 with
      | error e => cases e <;> first | exact .ok rfl | exact .error _
      | ok r1 =>
        cases h2 with
        | error e => cases e <;> first | exact .ok rfl | exact .error _
        | ok r2 =>
          simp only
          rw [(r1.times h).2.2.2, (r2.times h).2.2.2]
          refine (Corresponds.of_same _).bind (fun a _ e => ?_)
          subst e
          refine (Corresponds.of_same _).bind (fun b _ e => ?_)
          subst e
          exact hv.countPeriodsBody h f d hs _ _ _

end
end TB
