import Verif.Lemmas.Later
import Verif.Lemmas.SameTimes
import Verif.Model.Interval
/-! Timeboards some time later. -/
namespace TB
variable {L : Type}

/-- The timeline on the moved frame. -/
def Timeline.move (k : Int) (tl : Timeline L) : Timeline L := { tl with frame := tl.frame.move k }

/-- The timeboard on the moved frame. -/
def Timeboard.move (k : Int) (tb : Timeboard L) : Timeboard L := { tb with timeline := tb.timeline.move k }

section
variable {d k : Int} {tl : Timeline L}

theorem Timeline.wsStart_move (h : tl.frame.Moves d k) (n : Int) : (tl.move k).wsStart n = (tl.wsStart n).map (· + d) := by
  unfold Timeline.wsStart
  show (do let b ← tl.firstBaseunit n; let u ← tl.frame.unitAt b; return (tl.frame.move k).unitStart u) = _
  simp only [h.unitStart]
  cases tl.firstBaseunit n with
  | error e => rfl
  | ok b =>
    show (do let u ← tl.frame.unitAt b; return tl.frame.unitStart u + d) = Except.map _ (do let u ← tl.frame.unitAt b; return tl.frame.unitStart u)
    cases tl.frame.unitAt b <;> rfl

theorem Timeline.wsEnd_move (h : tl.frame.Moves d k) (n : Int) : (tl.move k).wsEnd n = (tl.wsEnd n).map (· + d) := by
  unfold Timeline.wsEnd
  show (do let b ← tl.lastBaseunit n; let u ← tl.frame.unitAt b; return (tl.frame.move k).unitEnd u) = _
  simp only [h.unitEnd]
  cases tl.lastBaseunit n with
  | error e => rfl
  | ok b =>
    show (do let u ← tl.frame.unitAt b; return tl.frame.unitEnd u + d) = Except.map _ (do let u ← tl.frame.unitAt b; return tl.frame.unitEnd u)
    cases tl.frame.unitAt b <;> rfl

theorem Timeline.wsRef_move (h : tl.frame.Moves d k) (n : Int) : (tl.move k).wsRef n = (tl.wsRef n).map (· + d) := by
  unfold Timeline.wsRef
  rw [Timeline.wsStart_move h, Timeline.wsEnd_move h, show (tl.move k).refEnd = tl.refEnd from rfl]
  split <;> rfl

theorem Timeline.wsPosition_move (h : tl.frame.Moves d k) (t : Time) : (tl.move k).wsPosition (t + d) = tl.wsPosition t := by
  unfold Timeline.wsPosition
  rw [show (tl.move k).frame = tl.frame.move k from rfl, h.getLoc]
  rfl

theorem Timeline.amendLocate_move (h : tl.frame.Moves d k) (b : Bool) : ∀ (am : List (Time × L)) (acc : List (Int × L)),
    (tl.move k).amendLocate b (am.map (fun p => (p.1 + d, p.2))) acc = tl.amendLocate b am acc
  | [], _ => rfl
  | (t, v) :: rest, acc => by
    simp only [List.map_cons, Timeline.amendLocate, Timeline.wsPosition_move h, Timeline.amendLocate_move h b rest]

theorem Timeline.amend_move (h : tl.frame.Moves d k) (am : List (Time × L)) (b : Bool) :
    (tl.move k).amend (am.map (fun p => (p.1 + d, p.2))) b = (tl.amend am b).map (Timeline.move k) := by
  unfold Timeline.amend
  rw [Timeline.amendLocate_move h]
  cases tl.amendLocate b am [] <;> rfl

theorem Timeline.new_move {f : Frame} (h : f.Moves d k) {o : Layout L} (ho : ∀ m, o.UsesMarker m → m.Recurs f.freq d) (r : Bool) (x : L) (heap : Heap L) :
    Timeline.new (f.move k) (some (o.later d)) r x heap = (Timeline.new f (some o) r x heap).map (fun p => (p.1.move k, p.2)) := by
  simp only [Timeline.new, h.run o ho]
  rw [show (f.move k).n = f.n from rfl]
  cases Layout.run f o { first := 0, last := (f.n : Int) - 1 } { labels := fun _ => x, mask := fun _ => true, heap := heap } <;> rfl

end

theorem makeOrganizer_later (d : Int) (l : Layout L) : makeOrganizer (l.later d) = (makeOrganizer l).map (Layout.later d) := by
  match l with
  | .organizer c es => rfl
  | .organizerRP c i => rfl
  | .pattern (.list xs) => simp [makeOrganizer, Layout.later, Except.map, Layout.laterAll, Cut.later]
  | .pattern (.rp i) => rfl
  | .label x => rfl

theorem makeOrganizer_usesMarker {l org : Layout L} (h : makeOrganizer l = .ok org) {m : Marker} (hm : org.UsesMarker m) : l.UsesMarker m := by
  match l, h with
  | .organizer c es, h => cases h; exact hm
  | .organizerRP c i, h => cases h; exact hm
  | .pattern (.list xs), h =>
    cases h
    rcases hm with ⟨es, hw⟩ | ⟨i, hw⟩
    · cases hw with
      | elem h1 h2 =>
        simp only [List.mem_singleton] at h1
        subst h1
        cases h2
    · cases hw with
      | elem h1 h2 =>
        simp only [List.mem_singleton] at h1
        subst h1
        cases h2

theorem Timeboard.new_later {a : Args L} {d k : Int} (hb : ∀ o, a.freq.base.startOf (o + k) = a.freq.base.startOf o + d)
    (hl : ∀ m, a.layout.UsesMarker m → m.Recurs a.freq d) (heap : Heap L) :
    Timeboard.new (a.later d) heap = (Timeboard.new a heap).map (fun r => (r.1.move k, r.2)) := by
  unfold Timeboard.new Args.later
  simp only [makeOrganizer_later, Frame.new_later hb]
  cases ho : makeOrganizer a.layout with
  | error e => rfl
  | ok org =>
    simp only [Except.map]
    by_cases hw : a.worktimeSource ∉ ["duration", "labels"]
    · rw [if_pos hw, if_pos hw]
    · rw [if_neg hw, if_neg hw]
      cases hF : Frame.new a.freq a.start a.stop with
      | error e => rfl
      | ok f =>
        have hff : f.freq = a.freq := by obtain ⟨_, rfl⟩ := Frame.new_ok_iff.1 hF; rfl
        have hM : f.Moves d k := by unfold Frame.Moves; rw [hff]; exact hb
        simp only
        rw [Timeline.new_move hM (fun m hm => by rw [hff]; exact hl m (makeOrganizer_usesMarker ho hm))]
        cases hT : Timeline.new f (some org) a.refEnd a.defaultLabel heap with
        | error e => rfl
        | ok r =>
          obtain ⟨tl, heap'⟩ := r
          have htf : tl.frame = f := by
            simp only [Timeline.new] at hT
            split at hT
            · cases hT
            · cases hT; rfl
          simp only [Except.map]
          rw [Timeline.amend_move (by rw [htf]; exact hM)]
          cases tl.amend a.amendments <;> rfl

theorem Timeboard.later_frame {a : Args L} {heap heap' : Heap L} {tb : Timeboard L} (h : Timeboard.new a heap = .ok (tb, heap')) :
    tb.timeline.frame.freq = a.freq := by
  obtain ⟨org, f, tl0, tl, h1, h2, h3, h4, h5, rfl⟩ := Timeboard.new_ok_iff.1 h
  have e0 : tl0.frame = f := by
    simp only [Timeline.new] at h4
    split at h4
    · cases h4
    · cases h4; rfl
  have e1 : tl.frame = tl0.frame := by
    unfold Timeline.amend at h5
    split at h5
    · cases h5
    · cases h5; rfl
  obtain ⟨_, rfl⟩ := Frame.new_ok_iff.1 h3
  simp only [e1, e0]

theorem Timeboard.laterBy_move {tb : Timeboard L} {d k : Int} (hv : tb.Valid) (h : tb.timeline.frame.Moves d k) : tb.LaterBy d (tb.move k) := by
  refine ⟨rfl, ?_⟩
  intro n h0 h1
  obtain ⟨w, hw, e1, _⟩ := Workshift.exists_of_range hv none h0 h1
  exact ⟨w, w, hw, hw, rfl, rfl, Timeline.wsStart_move h _, Timeline.wsEnd_move h _, Timeline.wsRef_move h _⟩

/-- All lookups of the two timeboards agree if the second one is asked `d` later. -/
structure Timeboard.AgreeBy (d : Int) (tb tb' : Timeboard L) : Prop where
  labels : tb.timeline.labels = tb'.timeline.labels
  len : tb.timeline.wsIdx.length = tb'.timeline.wsIdx.length
  start : ∀ k, tb'.timeline.wsStart k = (tb.timeline.wsStart k).map (· + d)
  stop : ∀ k, tb'.timeline.wsEnd k = (tb.timeline.wsEnd k).map (· + d)
  ref : ∀ k, tb'.timeline.wsRef k = (tb.timeline.wsRef k).map (· + d)
  pos : ∀ t, tb'.timeline.wsPosition (t + d) = tb.timeline.wsPosition t
  startTime : tb'.startTime = tb.startTime + d
  endTime : tb'.endTime = tb.endTime + d

theorem Timeboard.LaterBy.agree {d : Int} {tb tb' : Timeboard L} (hv : tb.Valid) (hv' : tb'.Valid) (h : tb.LaterBy d tb') : tb.AgreeBy d tb' := by
  have wf := hv.wf
  have wf' := hv'.wf
  have hlen := h.number
  have facts : ∀ k, 0 ≤ k → k < tb.timeline.len → tb.timeline.label k = tb'.timeline.label k ∧
      tb'.timeline.wsStart k = (tb.timeline.wsStart k).map (· + d) ∧ tb'.timeline.wsEnd k = (tb.timeline.wsEnd k).map (· + d) ∧
      tb'.timeline.wsRef k = (tb.timeline.wsRef k).map (· + d) := by
    intro k h0 h1
    obtain ⟨w, w', e1, e2, e3, _, e4, e5, e6⟩ := h.each k h0 h1
    obtain ⟨x, hx, x1, _, x2, _⟩ := Workshift.exists_of_range hv none h0 h1
    obtain ⟨y, hy, y1, _, y2, _⟩ := Workshift.exists_of_range hv' none h0 (hlen ▸ h1)
    rw [e1] at hx; cases hx
    rw [e2] at hy; cases hy
    unfold Workshift.startTime Workshift.endTime Workshift.toTimestamp at *
    rw [x1, y1] at e4 e5 e6
    exact ⟨by rw [x2, y2, e3], e4, e5, e6⟩
  have hll : tb.timeline.labels.length = tb.timeline.wsIdx.length := wf.labels_len
  have hll' : tb'.timeline.labels.length = tb'.timeline.wsIdx.length := wf'.labels_len
  have hl : tb.timeline.wsIdx.length = tb'.timeline.wsIdx.length := by unfold Timeline.len at hlen; omega
  have bnds : ∀ k, 0 ≤ k → k < tb.timeline.len → tb'.timeline.frame.unitStart (tb'.timeline.bnd k) = tb.timeline.frame.unitStart (tb.timeline.bnd k) + d ∧
      tb'.timeline.frame.unitStart (tb'.timeline.bnd (k + 1)) = tb.timeline.frame.unitStart (tb.timeline.bnd (k + 1)) + d := by
    intro k h0 h1
    obtain ⟨_, f1, f2, _⟩ := facts k h0 h1
    rw [wf.wsStart_eq h0 h1, wf'.wsStart_eq h0 (hlen ▸ h1)] at f1
    rw [wf.wsEnd_eq h0 h1, wf'.wsEnd_eq h0 (hlen ▸ h1)] at f2
    simp only [Except.map, Except.ok.injEq] at f1 f2
    exact ⟨f1, by omega⟩
  have hpos := wf.len_pos
  have hstart : tb'.startTime = tb.startTime + d := by
    have := (bnds 0 (by omega) hpos).1
    rw [wf.bnd_zero, wf'.bnd_zero] at this
    exact this
  have hend : tb'.endTime = tb.endTime + d := by
    have := (bnds (tb.timeline.len - 1) (by omega) (by omega)).2
    rw [show tb.timeline.len - 1 + 1 = tb.timeline.len by omega] at this
    have e1 := wf.unitStart_bnd_len
    have e2 := wf'.unitStart_bnd_len
    rw [← hlen] at e2
    unfold Timeboard.endTime
    omega
  refine ⟨?_, hl, ?_, ?_, ?_, ?_, hstart, hend⟩
  · apply List.ext_getElem (by omega)
    intro i h1 h2
    have := (facts i (by omega) (by unfold Timeline.len; omega)).1
    unfold Timeline.label pyGet? at this
    have hn : ¬ ((i : Int) < 0) := by omega
    simp [hn, h1, h2, orIndexError] at this
    exact this
  · intro k
    rcases Int.lt_or_le k tb.timeline.len with h1 | h1
    · rcases Int.lt_or_le k 0 with h0 | h0
      · rcases Int.lt_or_le (k + tb.timeline.len) 0 with h2 | h2
        · rw [Timeline.wsStart_low h2, Timeline.wsStart_low (hlen ▸ h2)]; rfl
        · rw [Timeline.wsStart_neg h0 h2, Timeline.wsStart_neg h0 (hlen ▸ h2), ← hlen]
          exact (facts _ h2 (by omega)).2.1
      · exact (facts k h0 h1).2.1
    · rw [Timeline.wsStart_ge h1, Timeline.wsStart_ge (hlen ▸ h1)]; rfl
  · intro k
    rcases Int.lt_or_le k tb.timeline.len with h1 | h1
    · rcases Int.lt_or_le k 0 with h0 | h0
      · rcases Int.lt_or_le (k + tb.timeline.len) 0 with h2 | h2
        · rw [Timeline.wsEnd_low h2, Timeline.wsEnd_low (hlen ▸ h2)]; rfl
        · rw [wf.wsEnd_neg h0 h2, wf'.wsEnd_neg h0 (hlen ▸ h2), ← hlen]
          exact (facts _ h2 (by omega)).2.2.1
      · exact (facts k h0 h1).2.2.1
    · rw [Timeline.wsEnd_ge h1, Timeline.wsEnd_ge (hlen ▸ h1)]; rfl
  · intro k
    rcases Int.lt_or_le k tb.timeline.len with h1 | h1
    · rcases Int.lt_or_le k 0 with h0 | h0
      · rcases Int.lt_or_le (k + tb.timeline.len) 0 with h2 | h2
        · rw [Timeline.wsRef_low h2, Timeline.wsRef_low (hlen ▸ h2)]; rfl
        · rw [wf.wsRef_neg h0 h2, wf'.wsRef_neg h0 (hlen ▸ h2), ← hlen]
          exact (facts _ h2 (by omega)).2.2.2
      · exact (facts k h0 h1).2.2.2
    · rw [Timeline.wsRef_ge h1, Timeline.wsRef_ge (hlen ▸ h1)]; rfl
  · intro t
    cases e : tb.timeline.wsPosition t with
    | ok k =>
      obtain ⟨k0, k1, k2, k3⟩ := (wf.wsPosition_ok_iff t k).1 e
      obtain ⟨b1, b2⟩ := bnds k k0 k1
      exact (wf'.wsPosition_ok_iff (t + d) k).2 ⟨k0, hlen ▸ k1, by omega, by omega⟩
    | error er =>
      obtain ⟨h1, h2⟩ := (wf.wsPosition_error_iff t er).1 e
      exact (wf'.wsPosition_error_iff (t + d) er).2 ⟨h1, by
        unfold Timeboard.startTime at hstart
        unfold Timeboard.endTime at hend
        omega⟩


/-- Periods of a frequency which recurs. -/
theorem Period.later_times {p : Period} {d : Int} (hp : p.freq.base.Recurs d) :
    (Period.ofTime p.freq (p.startTime + d)).startTime = p.startTime + d ∧ (Period.ofTime p.freq (p.startTime + d)).endTime = p.endTime + d := by
  obtain ⟨k, hk⟩ := hp
  unfold Period.ofTime Period.startTime Period.endTime
  simp only [ordOf_later hk, Base.ordOf_startOf, hk]
  rw [show p.ord + k + (p.freq.mult : Int) = p.ord + p.freq.mult + k by omega, hk]
  exact ⟨trivial, by omega⟩

theorem Period.ofTime_later {f : Freq} {d : Int} (hp : f.base.Recurs d) (t : Time) :
    (Period.ofTime f (t + d)).startTime = (Period.ofTime f t).startTime + d ∧ (Period.ofTime f (t + d)).endTime = (Period.ofTime f t).endTime + d := by
  obtain ⟨k, hk⟩ := hp
  unfold Period.ofTime Period.startTime Period.endTime
  simp only [ordOf_later hk, hk]
  rw [show f.base.ordOf t + k + (f.mult : Int) = f.base.ordOf t + f.mult + k by omega, hk]
  exact ⟨trivial, by omega⟩

theorem IvlRef.toTime_later {ref : IvlRef} {d : Int} (hr : ∀ p, ref = .period p → p.freq.base.Recurs d) : (ref.later d).toTime? = ref.toTime?.map (· + d) := by
  cases ref with
  | pair a b => rfl
  | short => rfl
  | point t => rfl
  | period p => simp only [IvlRef.later, IvlRef.toTime?, (Period.later_times (hr p rfl)).1]; rfl

namespace Timeboard.AgreeBy
variable {d : Int} {tb tb' : Timeboard L} (h : tb.AgreeBy d tb')
include h

theorem label_eq (k : Int) : tb.timeline.label k = tb'.timeline.label k := by
  unfold Timeline.label; rw [h.labels]

theorem len_eq : tb.timeline.len = tb'.timeline.len := by
  unfold Timeline.len; rw [h.len]

theorem index_eq : tb.timeline.index = tb'.timeline.index := by
  unfold Timeline.index; rw [h.len_eq]

theorem schedule_eq (name : String) (sel : L → Bool) : Schedule.new tb.timeline name sel = Schedule.new tb'.timeline name sel := by
  unfold Schedule.new; rw [h.labels]

theorem afterLoop_eq (t : Time) : ∀ (n : Nat) (c : Int), tb'.timeline.afterLoop (t + d) n c = tb.timeline.afterLoop t n c
  | 0, _ => rfl
  | n + 1, c => by
    unfold Timeline.afterLoop
    rw [h.ref c, afterLoop_eq t n (c + 1)]
    cases tb.timeline.wsRef c with
    | error e => cases e <;> rfl
    | ok r =>
      simp only [Except.map]
      by_cases hc : r ≥ t
      · rw [if_pos hc, if_pos (by omega)]
      · rw [if_neg hc, if_neg (by omega)]

theorem beforeLoop_eq (t : Time) : ∀ (n : Nat) (c : Int), tb'.timeline.beforeLoop (t + d) n c = tb.timeline.beforeLoop t n c
  | 0, _ => rfl
  | n + 1, c => by
    unfold Timeline.beforeLoop
    rw [h.ref c, beforeLoop_eq t n (c - 1)]
    cases tb.timeline.wsRef c with
    | error e => cases e <;> rfl
    | ok r =>
      simp only [Except.map]
      by_cases hc : r ≤ t
      · rw [if_pos hc, if_pos (by omega)]
      · rw [if_neg hc, if_neg (by omega)]

theorem after_eq (t : Time) : tb'.timeline.posByRefAfter (t + d) = tb.timeline.posByRefAfter t := by
  unfold Timeline.posByRefAfter
  simp only [h.pos t, h.len, h.afterLoop_eq]

theorem before_eq (t : Time) : tb'.timeline.posByRefBefore (t + d) = tb.timeline.posByRefBefore t := by
  unfold Timeline.posByRefBefore
  simp only [h.pos t, h.len, h.beforeLoop_eq]

theorem locate_eq (t : Time) (b : ByRef) : tb'.locate (t + d) b = tb.locate t b := by
  unfold Timeboard.locate
  simp only [h.pos, h.after_eq, h.before_eq, h.startTime, h.endTime]
  have e1 : (t + d < tb.startTime + d) ↔ (t < tb.startTime) := by omega
  have e2 : (t + d > tb.endTime + d) ↔ (t > tb.endTime) := by omega
  simp only [e1, e2]

theorem locsByPeriod_eq {p p' : Period} (h1 : p'.startTime = p.startTime + d) (h2 : p'.endTime = p.endTime + d) (clip dh dt : Bool) :
    tb'.locsByPeriod p' clip dh dt = tb.locsByPeriod p clip dh dt := by
  unfold Timeboard.locsByPeriod
  simp only [h1, h2, h.locate_eq, h.len_eq]

theorem locsByLength_eq {ref : Option IvlRef} (hr : ∀ p, ref = some (.period p) → p.freq.base.Recurs d) (n : Int) (dh dt : Bool) :
    tb'.locsByLength (ref.map (IvlRef.later d)) n dh dt = tb.locsByLength ref n dh dt := by
  unfold Timeboard.locsByLength
  cases ref with
  | none => rfl
  | some r =>
    simp only [Option.map, Option.bind, IvlRef.toTime_later (ref := r) (fun p hp => hr p (by rw [hp]))]
    cases r.toTime? with
    | none => rfl
    | some t => simp only [h.locate_eq, h.len_eq]

theorem locsFromReference_eq (ref : Option IvlRef) (dh dt : Bool) :
    tb'.locsFromReference (ref.map (IvlRef.later d)) dh dt = tb.locsFromReference ref dh dt := by
  unfold Timeboard.locsFromReference
  cases ref with
  | none => simp only [Option.map, h.len_eq]
  | some r =>
    cases r with
    | pair a b =>
      cases a <;> cases b <;> simp only [Option.map, IvlRef.later, h.locate_eq, h.len_eq]
    | short => rfl
    | point t => rfl
    | period p => rfl

theorem startTime_eq (v : Interval L) : v.startTime tb' = (v.startTime tb).map (Option.map (· + d)) := by
  unfold Interval.startTime
  simp only [h.start]
  split
  · rfl
  · cases tb.timeline.wsStart v.lo <;> rfl

theorem endTime_eq (v : Interval L) : v.endTime tb' = (v.endTime tb).map (Option.map (· + d)) := by
  unfold Interval.endTime
  simp only [h.stop]
  split
  · rfl
  · cases tb.timeline.wsEnd v.hi <;> rfl

variable (hd : tb.defaultSchedule = tb'.defaultSchedule)
include hd

theorem workshift_eq (k : Int) (s : Option (Schedule L)) : Workshift.new tb' k s = Workshift.new tb k s := by
  unfold Workshift.new
  rw [h.label_eq, hd]

theorem getWorkshift_eq (t : Time) (s : Option (Schedule L)) : tb'.getWorkshift (t + d) s = tb.getWorkshift t s := by
  unfold Timeboard.getWorkshift
  simp only [h.locate_eq, h.workshift_eq hd]

theorem make_eq (b : Int × Int) (s : Option (Schedule L)) (void : Bool) : Interval.make tb' b s void = Interval.make tb b s void := by
  unfold Interval.make handleBound
  simp only [h.len_eq, hd]

theorem getInterval_eq {ref : Option IvlRef} (hr : ∀ p, ref = some (.period p) → p.freq.base.Recurs d) (length : Option Int) {period : Option Freq}
    (hp : ∀ f, period = some f → f.base.Recurs d) (clip : Bool) (closed : String) (s : Option (Schedule L)) :
    tb'.getInterval (ref.map (IvlRef.later d)) length period clip closed s = tb.getInterval ref length period clip closed s := by
  unfold Timeboard.getInterval
  have hf : ∀ locs, tb'.finishInterval locs s = tb.finishInterval locs s := by
    intro locs
    unfold Timeboard.finishInterval Interval.new
    simp only [h.make_eq hd]
  have hper : ∀ (r : IvlRef) (fr : Option Freq) (p : Period), ref = some r → (∀ f, fr = some f → f.base.Recurs d) → getPeriod r fr = some p →
      ∃ p', getPeriod (r.later d) fr = some p' ∧ p'.startTime = p.startTime + d ∧ p'.endTime = p.endTime + d := by
    intro r fr p hrr hfr hg
    cases r with
    | pair a b => cases hg
    | short => cases hg
    | period q =>
      rw [show p = q from (Option.some.inj hg).symm]
      exact ⟨_, rfl, Period.later_times (hr q hrr)⟩
    | point t =>
      cases fr with
      | none => cases hg
      | some g =>
        cases hg
        exact ⟨_, rfl, Period.ofTime_later (hfr g rfl) t⟩
  have hnone : ∀ (r : IvlRef) (fr : Option Freq), getPeriod r fr = none → getPeriod (r.later d) fr = none := by
    intro r fr hg
    cases r with
    | pair a b => rfl
    | short => rfl
    | period q => cases hg
    | point t => cases fr with
      | none => rfl
      | some g => cases hg
  have hl : ∀ dh dt, tb'.intervalLocs (ref.map (IvlRef.later d)) length period clip dh dt = tb.intervalLocs ref length period clip dh dt := by
    intro dh dt
    unfold Timeboard.intervalLocs
    have hstep : ∀ fr : Option Freq, (∀ f, fr = some f → f.base.Recurs d) →
        ((ref.map (IvlRef.later d)).bind (fun r => getPeriod r fr) = none ∧ ref.bind (fun r => getPeriod r fr) = none) ∨
        (∃ p p', (ref.map (IvlRef.later d)).bind (fun r => getPeriod r fr) = some p' ∧ ref.bind (fun r => getPeriod r fr) = some p ∧
          tb'.locsByPeriod p' clip dh dt = tb.locsByPeriod p clip dh dt) := by
      intro fr hfr
      cases ref with
      | none => exact .inl ⟨rfl, rfl⟩
      | some r =>
        cases hg : getPeriod r fr with
        | none => exact .inl ⟨hnone r fr hg, hg⟩
        | some p =>
          obtain ⟨p', e1, e2, e3⟩ := hper r fr p rfl hfr hg
          exact .inr ⟨p, p', e1, hg, h.locsByPeriod_eq e2 e3 clip dh dt⟩
    cases length with
    | none =>
      cases period with
      | none =>
        simp only [h.locsFromReference_eq]
        rcases hstep none (fun f hf => by cases hf) with ⟨e1, e2⟩ | ⟨p, p', e1, e2, e3⟩
        · rw [e1, e2]
        · rw [e1, e2]; simp only [e3]
      | some f =>
        rcases hstep (some f) hp with ⟨e1, e2⟩ | ⟨p, p', e1, e2, e3⟩
        · simp only [e1, e2]
        · simp only [e1, e2, e3]
    | some n =>
      cases period with
      | none => exact h.locsByLength_eq hr n dh dt
      | some f => rfl
  simp only [hl, hf]

omit hd

theorem isOnDuty_eq (w : Workshift L) (s : Option (Schedule L)) : w.isOnDuty tb' s = w.isOnDuty tb s := by
  unfold Workshift.isOnDuty Schedule.isOnDuty
  rw [h.label_eq]

theorem isOffDuty_eq (w : Workshift L) (s : Option (Schedule L)) : w.isOffDuty tb' s = w.isOffDuty tb s := by
  unfold Workshift.isOffDuty Schedule.isOffDuty Schedule.isOnDuty
  rw [h.label_eq]

theorem dutyIndex_eq (w : Workshift L) (du : Duty) (s : Schedule L) : w.dutyIndex tb' du s = w.dutyIndex tb du s := by
  unfold Workshift.dutyIndex
  simp only [h.isOnDuty_eq, h.isOffDuty_eq, h.index_eq]

include hd

theorem workshiftAt_eq (idx : List Int) (i : Int) (s : Schedule L) : workshiftAt tb' idx i s = workshiftAt tb idx i s := by
  unfold workshiftAt
  simp only [h.workshift_eq hd]

theorem rollforward_eq (w : Workshift L) (n : Int) (du : Duty) (s : Option (Schedule L)) : w.rollforward tb' n du s = w.rollforward tb n du s := by
  unfold Workshift.rollforward
  simp only [h.dutyIndex_eq, h.workshiftAt_eq hd]

theorem rollback_eq (w : Workshift L) (n : Int) (du : Duty) (s : Option (Schedule L)) : w.rollback tb' n du s = w.rollback tb n du s := by
  unfold Workshift.rollback
  simp only [h.dutyIndex_eq, h.workshiftAt_eq hd]

omit hd

theorem dutyIdx_eq (v : Interval L) (du : Duty) (s : Schedule L) : v.dutyIdx tb' du s = v.dutyIdx tb du s := by
  unfold Interval.dutyIdx
  rw [h.index_eq]

theorem count_eq (v : Interval L) (du : Duty) (s : Option (Schedule L)) : v.count tb' du s = v.count tb du s := by
  unfold Interval.count
  simp only [h.dutyIdx_eq]

theorem sumLabels_eq (v : Interval L) (num : L → Option Rat) (du : Duty) (s : Option (Schedule L)) : v.sumLabels tb' num du s = v.sumLabels tb num du s := by
  unfold Interval.sumLabels
  simp only [h.dutyIdx_eq, h.label_eq]

include hd

theorem workshifts_eq (v : Interval L) (du : Duty) (s : Option (Schedule L)) : v.workshifts tb' du s = v.workshifts tb du s := by
  unfold Interval.workshifts
  simp only [h.dutyIdx_eq, h.workshift_eq hd]

theorem nth_eq (v : Interval L) (n : Int) (du : Duty) (s : Option (Schedule L)) : v.nth tb' n du s = v.nth tb n du s := by
  unfold Interval.nth
  simp only [h.dutyIdx_eq, h.workshiftAt_eq hd]

theorem overlap_eq (v u : Interval L) (s : Option (Schedule L)) : v.overlap tb' u s = v.overlap tb u s := by
  unfold Interval.overlap Interval.new Interval.newVoid
  simp only [h.make_eq hd]

theorem whatPortionOf_eq (v u : Interval L) (du : Duty) (s : Option (Schedule L)) : v.whatPortionOf tb' u du s = v.whatPortionOf tb u du s := by
  unfold Interval.whatPortionOf
  simp only [h.overlap_eq hd, h.count_eq]

end Timeboard.AgreeBy

end TB
