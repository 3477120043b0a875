import Verif.Lemmas.CountPeriods
import Verif.Lemmas.SameTimes
import Verif.Spec.Parameters
/-! Timeboards which differ in `workshift_ref` only. -/
namespace TB
variable {L : Type}

/-- The timeboard with another kind of reference time. -/
def Timeboard.withRef (tb : Timeboard L) (b : Bool) : Timeboard L := { tb with timeline := { tb.timeline with refEnd := b } }

theorem Timeline.new_withRef (f : Frame) (org : Option (Layout L)) (b b' : Bool) (d : L) (heap : Heap L) :
    Timeline.new f org b' d heap = match Timeline.new f org b d heap with
      | .error e => .error e
      | .ok (tl, k) => .ok ({ tl with refEnd := b' }, k) := by
  cases org with
  | none => rfl
  | some o =>
    unfold Timeline.new
    simp only
    cases Layout.run f o { first := 0, last := (f.n : Int) - 1 } { labels := fun _ => d, mask := fun _ => true, heap := heap } <;> rfl

theorem Timeline.amendLocate_withRef (tl : Timeline L) (b r : Bool) : ∀ (am : List (Time × L)) (acc : List (Int × L)),
    ({ tl with refEnd := b } : Timeline L).amendLocate r am acc = tl.amendLocate r am acc
  | [], _ => rfl
  | (t, v) :: rest, acc => by
    unfold Timeline.amendLocate
    have e : ({ tl with refEnd := b } : Timeline L).wsPosition t = tl.wsPosition t := rfl
    simp only [e, amendLocate_withRef tl b r rest]

theorem Timeboard.new_withRef (a : Args L) (b : Bool) (heap : Heap L) :
    Timeboard.new { a with refEnd := b } heap = match Timeboard.new a heap with
      | .error e => .error e
      | .ok (tb, k) => .ok (tb.withRef b, k) := by
  unfold Timeboard.new
  simp only
  cases makeOrganizer a.layout with
  | error e => rfl
  | ok org =>
    simp only
    split
    · rfl
    · cases Frame.new a.freq a.start a.stop with
      | error e => rfl
      | ok f =>
        simp only [Timeline.new_withRef f (some org) a.refEnd b]
        cases Timeline.new f (some org) a.refEnd a.defaultLabel heap with
        | error e => rfl
        | ok r =>
          simp only
          have e : ({ r.1 with refEnd := b } : Timeline L).amend a.amendments = (r.1.amend a.amendments).map (fun tl => { tl with refEnd := b }) := by
            unfold Timeline.amend
            rw [Timeline.amendLocate_withRef]
            cases r.1.amendLocate false a.amendments [] <;> rfl
          rw [e]
          cases r.1.amend a.amendments <;> rfl

section
variable (tb : Timeboard L) (b : Bool)

theorem Timeboard.withRef_start (k : Int) : (tb.withRef b).timeline.wsStart k = tb.timeline.wsStart k := rfl
theorem Timeboard.withRef_stop (k : Int) : (tb.withRef b).timeline.wsEnd k = tb.timeline.wsEnd k := rfl
theorem Timeboard.withRef_pos (t : Time) : (tb.withRef b).timeline.wsPosition t = tb.timeline.wsPosition t := rfl
theorem Timeboard.withRef_locate (t : Time) : (tb.withRef b).locate t = tb.locate t := rfl
theorem Timeboard.withRef_getWorkshift (t : Time) (s : Option (Schedule L)) : (tb.withRef b).getWorkshift t s = tb.getWorkshift t s := rfl
theorem Timeboard.withRef_locsFromReference (ref : Option IvlRef) (dh dt : Bool) :
    (tb.withRef b).locsFromReference ref dh dt = tb.locsFromReference ref dh dt := rfl
theorem Timeboard.withRef_locsByLength (ref : Option IvlRef) (n : Int) (dh dt : Bool) :
    (tb.withRef b).locsByLength ref n dh dt = tb.locsByLength ref n dh dt := rfl
theorem Timeboard.withRef_make (x : Int × Int) (s : Option (Schedule L)) (void : Bool) :
    Interval.make (tb.withRef b) x s void = Interval.make tb x s void := rfl
theorem Timeboard.withRef_finish (locs : Location × Location) (s : Option (Schedule L)) :
    (tb.withRef b).finishInterval locs s = tb.finishInterval locs s := rfl
theorem Timeboard.withRef_rollforward (w : Workshift L) (n : Int) (d : Duty) (s : Option (Schedule L)) :
    w.rollforward (tb.withRef b) n d s = w.rollforward tb n d s := rfl
theorem Timeboard.withRef_rollback (w : Workshift L) (n : Int) (d : Duty) (s : Option (Schedule L)) :
    w.rollback (tb.withRef b) n d s = w.rollback tb n d s := rfl
theorem Timeboard.withRef_wsWorktime (w : Workshift L) (num : L → Option Rat) (d : Duty) (s : Option (Schedule L)) :
    w.worktime (tb.withRef b) num d s = w.worktime tb num d s := rfl
theorem Timeboard.withRef_workshifts (v : Interval L) (d : Duty) (s : Option (Schedule L)) :
    v.workshifts (tb.withRef b) d s = v.workshifts tb d s := rfl
theorem Timeboard.withRef_nth (v : Interval L) (n : Int) (d : Duty) (s : Option (Schedule L)) :
    v.nth (tb.withRef b) n d s = v.nth tb n d s := rfl
theorem Timeboard.withRef_count (v : Interval L) (d : Duty) (s : Option (Schedule L)) :
    v.count (tb.withRef b) d s = v.count tb d s := rfl
theorem Timeboard.withRef_overlap (v u : Interval L) (s : Option (Schedule L)) :
    v.overlap (tb.withRef b) u s = v.overlap tb u s := rfl
theorem Timeboard.withRef_whatPortionOf (v u : Interval L) (d : Duty) (s : Option (Schedule L)) :
    v.whatPortionOf (tb.withRef b) u d s = v.whatPortionOf tb u d s := rfl
theorem Timeboard.withRef_totalDuration (v : Interval L) (d : Duty) (s : Option (Schedule L)) :
    v.totalDuration (tb.withRef b) d s = v.totalDuration tb d s := rfl
theorem Timeboard.withRef_worktime (v : Interval L) (num : L → Option Rat) (d : Duty) (s : Option (Schedule L)) :
    v.worktime (tb.withRef b) num d s = v.worktime tb num d s := rfl

end

theorem Timeboard.Valid.withRef {tb : Timeboard L} (hv : tb.Valid) (b : Bool) : (tb.withRef b).Valid :=
  ⟨⟨hv.wf.npos, hv.wf.sorted, hv.wf.range, hv.wf.zero_mem, hv.wf.fb_len, hv.wf.fb, hv.wf.labels_len⟩, hv.default_owned, hv.owned, hv.names, hv.source⟩

/-- The search by reference time depends on the comparisons only. -/
theorem Timeline.WF.after_congr {tl tl' : Timeline L} (wf : tl.WF) (wf' : tl'.WF) (hf : tl.frame = tl'.frame) (hl : tl.len = tl'.len) {t : Time}
    (h : ∀ j, 0 ≤ j → j < tl.len → (t ≤ tl.refTime j ↔ t ≤ tl'.refTime j)) : tl.posByRefAfter t = tl'.posByRefAfter t := by
  cases e : tl.posByRefAfter t with
  | ok k =>
    obtain ⟨h1, h2, h3, h4, h5, h6⟩ := (wf.posByRefAfter_ok_iff t k).1 e
    refine ((wf'.posByRefAfter_ok_iff t k).2 ⟨hf ▸ h1, hf ▸ h2, h3, hl ▸ h4, (h k h3 h4).1 h5, ?_⟩).symm
    intro j j0 j1
    have := h6 j j0 j1
    have := h j j0 (by omega)
    omega
  | error e0 =>
    obtain ⟨h1, h2⟩ := (wf.posByRefAfter_error_iff t e0).1 e
    refine ((wf'.posByRefAfter_error_iff t e0).2 ⟨h1, ?_⟩).symm
    rw [← hf, ← hl]
    rcases h2 with h2 | h2 | h2
    · exact .inl h2
    · exact .inr (.inl h2)
    · refine .inr (.inr fun j j0 j1 => ?_)
      have := h2 j j0 j1
      have := h j j0 j1
      omega

theorem Timeline.WF.before_congr {tl tl' : Timeline L} (wf : tl.WF) (wf' : tl'.WF) (hf : tl.frame = tl'.frame) (hl : tl.len = tl'.len) {t : Time}
    (h : ∀ j, 0 ≤ j → j < tl.len → (tl.refTime j ≤ t ↔ tl'.refTime j ≤ t)) : tl.posByRefBefore t = tl'.posByRefBefore t := by
  cases e : tl.posByRefBefore t with
  | ok k =>
    obtain ⟨h1, h2, h3, h4, h5, h6⟩ := (wf.posByRefBefore_ok_iff t k).1 e
    refine ((wf'.posByRefBefore_ok_iff t k).2 ⟨hf ▸ h1, hf ▸ h2, h3, hl ▸ h4, (h k h3 h4).1 h5, ?_⟩).symm
    intro j j0 j1
    have := h6 j j0 (by omega)
    have := h j (by omega) (by omega)
    omega
  | error e0 =>
    obtain ⟨h1, h2⟩ := (wf.posByRefBefore_error_iff t e0).1 e
    refine ((wf'.posByRefBefore_error_iff t e0).2 ⟨h1, ?_⟩).symm
    rw [← hf, ← hl]
    rcases h2 with h2 | h2 | h2
    · exact .inl h2
    · exact .inr (.inl h2)
    · refine .inr (.inr fun j j0 j1 => ?_)
      have := h2 j j0 j1
      have := h j j0 j1
      omega

section
variable {tb : Timeboard L} (hv : tb.Valid) {f : Freq} (hu : tb.Unsplit f) (b : Bool)
include hv hu

theorem Timeboard.Unsplit.between {k : Int} (h0 : 0 ≤ k) (h1 : k < tb.timeline.len) (o : Int) :
    f.base.startOf o ≤ tb.timeline.frame.unitStart (tb.timeline.bnd k) ∨ tb.timeline.frame.unitStart (tb.timeline.bnd (k + 1)) ≤ f.base.startOf o := by
  obtain ⟨w, e1, _, _, _, e5, e6, _⟩ := Workshift.exists_of_range hv none h0 h1
  have := hu k w _ _ h0 h1 e1 e5 e6 o
  omega

theorem Timeboard.Unsplit.ref_le {k : Int} (h0 : 0 ≤ k) (h1 : k < tb.timeline.len) (o : Int) :
    f.base.startOf o ≤ tb.timeline.refTime k ↔ f.base.startOf o ≤ (tb.withRef b).timeline.refTime k := by
  have h2 := Timeboard.Unsplit.between hv hu h0 h1 o
  have h3 := hv.wf.refTime_within h0 h1
  have h4 := (hv.withRef b).wf.refTime_within h0 h1
  have e : ∀ x, (tb.withRef b).timeline.frame.unitStart ((tb.withRef b).timeline.bnd x) = tb.timeline.frame.unitStart (tb.timeline.bnd x) := fun _ => rfl
  rw [e, e] at h4
  omega

theorem Timeboard.Unsplit.ord_ref {k : Int} (h0 : 0 ≤ k) (h1 : k < tb.timeline.len) :
    f.base.ordOf (tb.timeline.refTime k) = f.base.ordOf ((tb.withRef b).timeline.refTime k) := by
  have h2 := (Timeboard.Unsplit.ref_le hv hu b h0 h1 (f.base.ordOf (tb.timeline.refTime k))).1 (Base.startOf_le_self _ _)
  have h3 := (Timeboard.Unsplit.ref_le hv hu b h0 h1 (f.base.ordOf ((tb.withRef b).timeline.refTime k))).2 (Base.startOf_le_self _ _)
  rw [Base.startOf_le_iff] at h2 h3
  omega

theorem Timeboard.Unsplit.locsByPeriod_eq {p : Period} (hp : p.freq.base = f.base) (clip dh dt : Bool) :
    (tb.withRef b).locsByPeriod p clip dh dt = tb.locsByPeriod p clip dh dt := by
  have e1 : (tb.withRef b).locate p.startTime .after = tb.locate p.startTime .after := by
    have : tb.timeline.posByRefAfter p.startTime = (tb.withRef b).timeline.posByRefAfter p.startTime := by
      refine hv.wf.after_congr (hv.withRef b).wf rfl rfl ?_
      intro j j0 j1
      unfold Period.startTime
      rw [hp]
      exact Timeboard.Unsplit.ref_le hv hu b j0 j1 _
    unfold Timeboard.locate
    simp only [← this]
    rfl
  have e2 : (tb.withRef b).locate p.endTime .before = tb.locate p.endTime .before := by
    have : tb.timeline.posByRefBefore p.endTime = (tb.withRef b).timeline.posByRefBefore p.endTime := by
      refine hv.wf.before_congr (hv.withRef b).wf rfl rfl ?_
      intro j j0 j1
      have := Timeboard.Unsplit.ref_le hv hu b j0 j1 (p.ord + p.freq.mult)
      unfold Period.endTime
      rw [hp]
      omega
    unfold Timeboard.locate
    simp only [← this]
    rfl
  unfold Timeboard.locsByPeriod
  rw [e1, e2]
  rfl

theorem Timeboard.Unsplit.getInterval_period {ref : IvlRef} (hp : ∀ p, ref = .period p → p.freq.base = f.base) (clip : Bool) (closed : String)
    (s : Option (Schedule L)) : (tb.withRef b).getInterval (some ref) none none clip closed s = tb.getInterval (some ref) none none clip closed s := by
  unfold Timeboard.getInterval Timeboard.intervalLocs
  simp only [Timeboard.withRef_locsFromReference, Timeboard.withRef_finish]
  cases ref with
  | period p =>
    simp only [Option.bind_some, getPeriod]
    rw [Timeboard.Unsplit.locsByPeriod_eq hv hu b (hp p rfl)]
  | pair x y => rfl
  | short => rfl
  | point t => rfl

theorem Timeboard.Unsplit.getInterval_freq {g : Freq} (hg : g.base = f.base) {ref : Option IvlRef} (hp : ∀ p, ref = some (.period p) → p.freq.base = f.base)
    (clip : Bool) (closed : String) (s : Option (Schedule L)) :
    (tb.withRef b).getInterval ref none (some g) clip closed s = tb.getInterval ref none (some g) clip closed s := by
  unfold Timeboard.getInterval Timeboard.intervalLocs
  simp only [Timeboard.withRef_finish]
  cases ref with
  | none => rfl
  | some r =>
    cases r with
    | period p =>
      simp only [Option.bind_some, getPeriod]
      rw [Timeboard.Unsplit.locsByPeriod_eq hv hu b (hp p rfl)]
    | pair x y => rfl
    | short => rfl
    | point t =>
      simp only [Option.bind_some, getPeriod]
      rw [Timeboard.Unsplit.locsByPeriod_eq hv hu b (p := Period.ofTime g t) hg]

theorem Timeboard.Unsplit.periodLoop_eq (d : Duty) (s : Schedule L) : ∀ os : List Int, periodLoop (tb.withRef b) f d s os = periodLoop tb f d s os
  | [] => rfl
  | o :: os => by
    unfold periodLoop
    have e : (tb.withRef b).getInterval (some (.period ⟨f, o⟩)) none none false "11" (some s) = tb.getInterval (some (.period ⟨f, o⟩)) none none false "11" (some s) :=
      Timeboard.Unsplit.getInterval_period hv hu b (fun p hp => by cases hp; rfl) _ _ _
    simp only [e, Timeboard.withRef_count, Timeboard.Unsplit.periodLoop_eq d s os]

end

/-- Only the period which contains a point in time matters for its location among periods. -/
theorem Frame.getLoc_ord {F : Frame} {t t' : Time} (h : F.freq.base.ordOf t = F.freq.base.ordOf t') : F.getLoc t = F.getLoc t' := by
  have key : ∀ i, (F.unitStart i ≤ t ↔ F.unitStart i ≤ t') := by
    intro i
    unfold Frame.unitStart
    rw [Base.startOf_le_iff, Base.startOf_le_iff, h]
  cases e : F.getLoc t with
  | ok i =>
    obtain ⟨h1, h2, h3, h4⟩ := (Frame.getLoc_ok_iff _ _).1 e
    refine ((Frame.getLoc_ok_iff _ _).2 ⟨h1, h2, (key i).1 h3, ?_⟩).symm
    have := key (i + 1)
    rw [Frame.unitEnd_eq] at h4 ⊢
    omega
  | error e0 =>
    obtain ⟨h1, h2⟩ := (Frame.getLoc_error_iff _ _).1 e
    refine ((Frame.getLoc_error_iff _ _).2 ⟨h1, ?_⟩).symm
    unfold Frame.startTime Frame.endTime at *
    rw [Frame.unitEnd_eq] at h2 ⊢
    have := key 0
    have := key ((F.n : Int) - 1 + 1)
    omega

theorem Timeboard.Valid.pair_congr {tb : Timeboard L} {x x' y y' : Time} (hx : tb.locate x = tb.locate x') (hy : tb.locate y = tb.locate y')
    (clip : Bool) (closed : String) (s : Option (Schedule L)) :
    tb.getInterval (some (.pair (some x) (some y))) none none clip closed s = tb.getInterval (some (.pair (some x') (some y'))) none none clip closed s := by
  unfold Timeboard.getInterval Timeboard.intervalLocs Timeboard.locsFromReference
  simp only [hx, hy]
  rfl

theorem Timeboard.Valid.locate_ref {tb : Timeboard L} (hv : tb.Valid) (b : Bool) {k : Int} (h0 : 0 ≤ k) (h1 : k < tb.timeline.len) :
    tb.locate (tb.timeline.refTime k) = tb.locate ((tb.withRef b).timeline.refTime k) := by
  have h3 := hv.wf.refTime_within h0 h1
  have h4 := (hv.withRef b).wf.refTime_within h0 h1
  have e : ∀ x, (tb.withRef b).timeline.frame.unitStart ((tb.withRef b).timeline.bnd x) = tb.timeline.frame.unitStart (tb.timeline.bnd x) := fun _ => rfl
  rw [e, e] at h4
  unfold Timeboard.locate
  rw [(hv.wf.wsPosition_ok_iff _ k).2 ⟨h0, h1, h3.1, h3.2⟩, (hv.wf.wsPosition_ok_iff _ k).2 ⟨h0, h1, h4.1, h4.2⟩]

theorem Interval.Fine.member {tb : Timeboard L} (hv : tb.Valid) {v : Interval L} (hf : v.Fine tb) {s : Schedule L} (hs : tb.Owns s) {d : Duty} {n : Int}
    {w : Workshift L} (h : v.nth tb n d (some s) = .ok w) : 0 ≤ w.loc ∧ w.loc < tb.timeline.len := by
  rcases hf.shape with hp | hh
  · by_cases hd : d = .on ∨ d = .off ∨ d = .any
    · rw [hp.nth_eq hv (sch := some s) hs hd] at h
      split at h
      · cases h
      · rename_i k hk
        have hm : k ∈ tb.dutyPositions s.selector d v.lo v.hi := by
          unfold pyGet? at hk
          split at hk
          · exact List.mem_of_getElem? hk
          · split at hk
            · exact List.mem_of_getElem? hk
            · cases hk
        have hr := Timeboard.mem_dutyPositions.1 hm
        have hl := hf.lt
        have h0 := hf.nonneg
        unfold Workshift.new at h
        split at h
        · cases h
        · injection h with h; subst h; simp only; omega
    · unfold Interval.nth Interval.dutyIdx at h
      rw [hp.not_void] at h
      cases d <;> simp at hd h
  · unfold Interval.nth at h
    rw [hh.void] at h
    cases h

theorem Timeboard.Unsplit.countPeriods_eq {tb : Timeboard L} (hv : tb.Valid) {f : Freq} (hu : tb.Unsplit f) (b : Bool) {v : Interval L} (hf : v.Fine tb)
    (d : Duty) {s : Option (Schedule L)} (hs : tb.OwnsOpt s) : v.countPeriods (tb.withRef b) f d s = v.countPeriods tb f d s := by
  have ho := owns_getD_fine hf hs
  unfold Interval.countPeriods
  split
  · rfl
  split
  · rfl
  have e1 : v.startTime (tb.withRef b) = v.startTime tb := rfl
  have e2 : v.endTime (tb.withRef b) = v.endTime tb := rfl
  have e3 : v.first (tb.withRef b) d (some (s.getD v.schedule)) = v.first tb d (some (s.getD v.schedule)) := rfl
  have e4 : v.last (tb.withRef b) d (some (s.getD v.schedule)) = v.last tb d (some (s.getD v.schedule)) := rfl
  simp only [e1, e2, e3, e4]
  congr 1; funext x
  congr 1; funext y
  cases hF : Frame.new f x y with
  | error e => rfl
  | ok F =>
    simp only [Bind.bind, Except.bind]
    cases h0 : v.first tb d (some (s.getD v.schedule)) with
    | error e => cases e <;> rfl
    | ok w0 =>
      cases h1 : v.last tb d (some (s.getD v.schedule)) with
      | error e => cases e <;> rfl
      | ok w1 =>
        simp only
        have m0 := hf.member hv ho h0
        have m1 := hf.member hv ho h1
        have hfr : F.freq = f := by rw [(Frame.new_ok_iff.1 hF).2]
        unfold Workshift.toTimestamp
        rw [hv.wf.wsRef_eq m0.1 m0.2, hv.wf.wsRef_eq m1.1 m1.2, (hv.withRef b).wf.wsRef_eq m0.1 m0.2, (hv.withRef b).wf.wsRef_eq m1.1 m1.2]
        simp only
        have o0 := Timeboard.Unsplit.ord_ref hv hu b m0.1 m0.2
        have o1 := Timeboard.Unsplit.ord_ref hv hu b m1.1 m1.2
        have l0 := hv.locate_ref b m0.1 m0.2
        have l1 := hv.locate_ref b m1.1 m1.2
        rw [← hfr] at o0 o1
        have g0 := Frame.getLoc_ord o0
        have g1 := Frame.getLoc_ord o1
        have c1 : ∀ i, ((tb.withRef b).timeline.refTime w1.loc ≤ F.unitEnd i ↔ tb.timeline.refTime w1.loc ≤ F.unitEnd i) := by
          intro i
          rw [Frame.unitEnd_eq]
          have a1 := F.freq.base.startOf_le_iff (F.ord (i + 1)) (tb.timeline.refTime w1.loc)
          have a2 := F.freq.base.startOf_le_iff (F.ord (i + 1)) ((tb.withRef b).timeline.refTime w1.loc)
          unfold Frame.unitStart
          omega
        unfold Interval.countPeriodsBody
        rw [hfr] at *
        simp only [Timeboard.Unsplit.periodLoop_eq hv hu b, ← g0, ← g1, c1, Timeboard.withRef_count]
        have p0 : ∀ y s, (tb.withRef b).getInterval (some (.pair (some ((tb.withRef b).timeline.refTime w0.loc)) (some y))) none none false "11" s =
            tb.getInterval (some (.pair (some (tb.timeline.refTime w0.loc)) (some y))) none none false "11" s := by
          intro y s
          rw [Timeboard.Valid.pair_congr (tb := tb) l0 (y := y) rfl]
          rfl
        have p1 : ∀ x s, (tb.withRef b).getInterval (some (.pair (some x) (some ((tb.withRef b).timeline.refTime w1.loc)))) none none false "11" s =
            tb.getInterval (some (.pair (some x) (some (tb.timeline.refTime w1.loc)))) none none false "11" s := by
          intro x s
          rw [Timeboard.Valid.pair_congr (tb := tb) (x := x) rfl l1]
          rfl
        simp only [p0, p1]
        rfl

theorem Timeboard.new_withSource (a : Args L) (src : String) (heap : Heap L) (hs : a.worktimeSource ∈ ["duration", "labels"])
    (hs' : src ∈ ["duration", "labels"]) :
    Timeboard.new { a with worktimeSource := src } heap = match Timeboard.new a heap with
      | .error e => .error e
      | .ok (tb, k) => .ok ({ tb with worktimeSource := src }, k) := by
  unfold Timeboard.new
  simp only [hs, hs', not_true, if_false]
  cases makeOrganizer a.layout with
  | error e => rfl
  | ok org =>
    simp only
    cases Frame.new a.freq a.start a.stop with
    | error e => rfl
    | ok f =>
      simp only
      cases Timeline.new f (some org) a.refEnd a.defaultLabel heap with
      | error e => rfl
      | ok r =>
        simp only
        cases r.1.amend a.amendments <;> rfl

theorem Timeboard.countPeriods_source (tb : Timeboard L) (src : String) (v : Interval L) (f : Freq) (d : Duty) (s : Option (Schedule L)) :
    v.countPeriods tb f d s = v.countPeriods { tb with worktimeSource := src } f d s := by
  have h : tb.Agree { tb with worktimeSource := src } := ⟨⟨rfl, fun _ => rfl, fun _ => rfl, fun _ => rfl, fun _ => rfl, rfl, rfl⟩, rfl⟩
  exact h.countPeriods_eq rfl v f d s

/-- The timeboard with another default schedule. -/
def Timeboard.withDefault (tb : Timeboard L) (x : Schedule L) (xs : List (String × Schedule L)) : Timeboard L :=
  { tb with defaultSchedule := x, schedules := xs }

theorem Timeboard.new_withDefault (a : Args L) (sel : L → Bool) (name : Option String) (heap : Heap L) :
    ∃ g : Timeline L → Schedule L × List (String × Schedule L),
    Timeboard.new { a with selector := sel, defaultName := name } heap = match Timeboard.new a heap with
      | .error e => .error e
      | .ok (tb, k) => .ok (tb.withDefault (g tb.timeline).1 (g tb.timeline).2, k) := by
  refine ⟨fun tl => (Schedule.new tl (name.getD "on_duty") sel, [(name.getD "on_duty", Schedule.new tl (name.getD "on_duty") sel)]), ?_⟩
  unfold Timeboard.new
  simp only
  cases makeOrganizer a.layout with
  | error e => rfl
  | ok org =>
    simp only
    split
    · rfl
    · cases Frame.new a.freq a.start a.stop with
      | error e => rfl
      | ok f =>
        simp only
        cases Timeline.new f (some org) a.refEnd a.defaultLabel heap with
        | error e => rfl
        | ok r =>
          simp only
          cases r.1.amend a.amendments <;> rfl

section
variable (tb : Timeboard L) (x : Schedule L) (xs : List (String × Schedule L))

theorem Timeboard.withDefault_getInterval (ref : Option IvlRef) (length : Option Int) (period : Option Freq) (clip : Bool) (closed : String)
    (s : Schedule L) : tb.getInterval ref length period clip closed (some s) = (tb.withDefault x xs).getInterval ref length period clip closed (some s) := rfl

theorem Timeboard.withDefault_periodLoop (f : Freq) (d : Duty) (s : Schedule L) : ∀ os : List Int,
    periodLoop tb f d s os = periodLoop (tb.withDefault x xs) f d s os
  | [] => rfl
  | o :: os => by
    unfold periodLoop
    rw [← Timeboard.withDefault_getInterval, Timeboard.withDefault_periodLoop f d s os]
    rfl

theorem Timeboard.withDefault_nth (v : Interval L) (n : Int) (d : Duty) (s : Option (Schedule L)) :
    v.nth tb n d s = v.nth (tb.withDefault x xs) n d s := rfl

theorem Timeboard.withDefault_count (v : Interval L) (d : Duty) (s : Option (Schedule L)) :
    v.count tb d s = v.count (tb.withDefault x xs) d s := rfl

theorem Timeboard.withDefault_countPeriods (v : Interval L) (f : Freq) (d : Duty) (s : Option (Schedule L)) :
    v.countPeriods tb f d s = v.countPeriods (tb.withDefault x xs) f d s := by
  have h : tb.Agree (tb.withDefault x xs) := ⟨⟨rfl, fun _ => rfl, fun _ => rfl, fun _ => rfl, fun _ => rfl, rfl, rfl⟩, rfl⟩
  unfold Interval.countPeriods Interval.countPeriodsBody Interval.first Interval.last Workshift.toTimestamp
  simp only [Timeboard.withDefault_periodLoop tb x xs, h.startTime_eq, h.endTime_eq, Timeboard.withDefault_getInterval tb x xs, h.count_eq,
    Timeboard.withDefault_nth tb x xs, h.ref]

end

end TB
