import Verif.Lemmas.SameTimes
import Verif.Lemmas.Anchor
import Verif.Lemmas.Layout3
import Verif.Lemmas.Marker
import Verif.Props.Layout
/-! When timeboards of different base units have the same workshifts. -/
namespace TB
variable {L : Type}

/-- The start times of all workshifts. -/
def Timeline.allStarts (tl : Timeline L) : List Time := (intRange 0 tl.len).map (fun k => tl.frame.unitStart (tl.bnd k))

theorem Timeline.WF.pairwise_allStarts {tl : Timeline L} (wf : tl.WF) : tl.allStarts.Pairwise (· < ·) := by
  unfold Timeline.allStarts
  rw [List.pairwise_map]
  refine (pairwise_intRange 0 tl.len).imp_of_mem ?_
  intro j k hj hk hjk
  rw [mem_intRange] at hj hk
  have := wf.bnd_lt_bnd hj.1 hjk (by omega)
  exact Frame.unitStart_lt this

theorem Timeline.allStarts_length (tl : Timeline L) : (tl.allStarts.length : Int) = tl.len := by
  unfold Timeline.allStarts Timeline.len
  rw [List.length_map, length_intRange]
  omega

theorem Timeline.allStarts_get {tl : Timeline L} {k : Int} (h0 : 0 ≤ k) (h1 : k < tl.len) : tl.allStarts[k.toNat]? = some (tl.frame.unitStart (tl.bnd k)) := by
  unfold Timeline.allStarts
  rw [List.getElem?_map, getElem?_intRange (by omega)]
  simp [Int.max_eq_left h0]

theorem Timeboard.Valid.starts_at {tb : Timeboard L} (hv : tb.Valid) {k : Int} (h0 : 0 ≤ k) (h1 : k < tb.timeline.len) {l : L}
    (hl : tb.timeline.label k = .ok l) : ∃ d, tb.Starts (tb.timeline.frame.unitStart (tb.timeline.bnd k)) d l := by
  obtain ⟨w, e1, e2, e3, e4, e5, e6, e7, e8⟩ := Workshift.exists_of_range hv none h0 h1
  rw [hl] at e4; injection e4 with e4
  exact ⟨_, k, w, h0, h1, e1, e5, e8, e4.symm⟩

theorem Timeboard.Valid.of_starts {tb : Timeboard L} (hv : tb.Valid) {t : Time} {d : Int} {l : L} (h : tb.Starts t d l) :
    ∃ k, 0 ≤ k ∧ k < tb.timeline.len ∧ t = tb.timeline.frame.unitStart (tb.timeline.bnd k) ∧ tb.timeline.label k = .ok l := by
  obtain ⟨k, w, h0, h1, w1, w2, w3, w4⟩ := h
  obtain ⟨x, e1, e2, e3, e4, e5, e6, e7, e8⟩ := Workshift.exists_of_range hv none h0 h1
  rw [w1] at e1; cases e1
  rw [w2] at e5; injection e5 with e5
  exact ⟨k, h0, h1, e5, by rw [e4, w4]⟩

theorem Timeboard.sameWorkshifts_of_starts {tb tb' : Timeboard L} (hv : tb.Valid) (hv' : tb'.Valid)
    (h : ∀ t l, (∃ d, tb.Starts t d l) ↔ (∃ d, tb'.Starts t d l)) (he : tb.endTime = tb'.endTime)
    (hr : tb.timeline.refEnd = tb'.timeline.refEnd) : tb.SameWorkshifts tb' := by
  have wf := hv.wf
  have wf' := hv'.wf
  have mem : ∀ {tb tb' : Timeboard L}, tb.Valid → tb'.Valid → (∀ t l, (∃ d, tb.Starts t d l) → (∃ d, tb'.Starts t d l)) →
      ∀ t, t ∈ tb.timeline.allStarts → t ∈ tb'.timeline.allStarts := by
    intro tb tb' hv hv' h t ht
    unfold Timeline.allStarts at ht ⊢
    rw [List.mem_map] at ht ⊢
    obtain ⟨k, hk, rfl⟩ := ht
    rw [mem_intRange] at hk
    obtain ⟨w, _, _, _, e4, _⟩ := Workshift.exists_of_range hv none hk.1 hk.2
    obtain ⟨d, hd⟩ := h _ _ (hv.starts_at hk.1 hk.2 e4)
    obtain ⟨j, j0, j1, j2, _⟩ := hv'.of_starts hd
    exact ⟨j, by rw [mem_intRange]; exact ⟨j0, j1⟩, j2.symm⟩
  have hS : tb.timeline.allStarts = tb'.timeline.allStarts :=
    pairwise_lt_ext wf.pairwise_allStarts wf'.pairwise_allStarts
      (fun t => ⟨mem hv hv' (fun t l => (h t l).1) t, mem hv' hv (fun t l => (h t l).2) t⟩)
  have hlen : tb.timeline.len = tb'.timeline.len := by
    rw [← Timeline.allStarts_length, ← Timeline.allStarts_length, hS]
  have hst : ∀ k, 0 ≤ k → k < tb.timeline.len → tb.timeline.frame.unitStart (tb.timeline.bnd k) = tb'.timeline.frame.unitStart (tb'.timeline.bnd k) := by
    intro k h0 h1
    have e1 := Timeline.allStarts_get h0 h1
    have e2 := Timeline.allStarts_get (tl := tb'.timeline) h0 (hlen ▸ h1)
    rw [hS, e2] at e1
    injection e1 with e1
    exact e1.symm
  have hst' : ∀ k, 0 ≤ k → k ≤ tb.timeline.len → tb.timeline.frame.unitStart (tb.timeline.bnd k) = tb'.timeline.frame.unitStart (tb'.timeline.bnd k) := by
    intro k h0 h1
    rcases Int.lt_or_eq_of_le h1 with h2 | h2
    · exact hst k h0 h2
    · subst h2
      have e1 := wf.unitStart_bnd_len
      have e2 := wf'.unitStart_bnd_len
      rw [← hlen] at e2
      unfold Timeboard.endTime at he
      omega
  refine ⟨hlen, ?_⟩
  intro k h0 h1
  obtain ⟨w, e1, e2, e3, e4, e5, e6, e7, e8⟩ := Workshift.exists_of_range hv none h0 h1
  obtain ⟨w', e1', e2', e3', e4', e5', e6', e7', e8'⟩ := Workshift.exists_of_range hv' none h0 (hlen ▸ h1)
  refine ⟨w, w', e1, e1', ?_, ?_, ?_, ?_⟩
  · obtain ⟨d, hd⟩ := (h _ _).1 (hv.starts_at h0 h1 e4)
    obtain ⟨j, j0, j1, j2, j3⟩ := hv'.of_starts hd
    have hjk : j = k := by
      have hx := hst k h0 h1
      rw [hx] at j2
      rcases Int.lt_trichotomy j k with hc | hc | hc
      · have := Frame.unitStart_lt (f := tb'.timeline.frame) (wf'.bnd_lt_bnd j0 hc (by omega)); omega
      · exact hc
      · have := Frame.unitStart_lt (f := tb'.timeline.frame) (wf'.bnd_lt_bnd h0 hc (by omega)); omega
    subst hjk
    rw [j3] at e4'
    injection e4'
  · rw [e5, e5', hst k h0 h1]
  · rw [e6, e6', hst' (k + 1) (by omega) (by omega)]
  · rw [e7, e7']
    unfold Timeline.refTime
    rw [hr, hst k h0 h1, hst' (k + 1) (by omega) (by omega)]

/-- The boundaries of the accepted marker periods are boundaries of base units. -/
theorem Frame.marker_aligned {f : Frame} {g : Freq} (hc : checkGroupbyFreq f.freq g = true) {i o : Int}
    (hd : (g.mult : Int) ∣ o - g.base.ordOf f.startTime) (h1 : f.unitStart i ≤ g.base.startOf o) (h2 : g.base.startOf o ≤ f.unitEnd i) :
    g.base.startOf o = f.unitStart i := by
  unfold Frame.unitStart at h1
  unfold Frame.unitEnd at h2
  unfold Frame.unitStart
  rcases checkGroupby_aligned hc with ⟨hm, ha⟩ | ⟨hb, hm⟩
  · obtain ⟨o', ho'⟩ := ha o
    rw [ho'] at h1 h2 ⊢
    rw [hm] at h2
    have a1 := (f.freq.base.startOf_le_startOf (f.ord i) o').1 h1
    have a2 : o' < f.ord i + (1 : Nat) := by
      rcases Int.lt_or_le o' (f.ord i + (1 : Nat)) with hx | hx
      · exact hx
      · have := (f.freq.base.startOf_le_startOf _ _).2 hx; omega
    congr 1; omega
  · rw [← hb] at h1 h2 ⊢ hd
    have a1 := (f.freq.base.startOf_le_startOf (f.ord i) o).1 h1
    have a2 : o < f.ord i + f.freq.mult := by
      rcases Int.lt_or_le o (f.ord i + f.freq.mult) with hx | hx
      · exact hx
      · have := (f.freq.base.startOf_le_startOf _ _).2 hx; omega
    have hd' : (f.freq.mult : Int) ∣ o - f.freq.base.ordOf f.startTime := Int.dvd_trans (Int.natCast_dvd_natCast.2 hm) hd
    unfold Frame.startTime Frame.unitStart at hd'
    rw [Base.ordOf_startOf] at hd'
    unfold Frame.ord at *
    obtain ⟨c, hc⟩ := hd'
    have hp := f.freq.mult_pos
    have e1 : o = f.o0 + f.freq.mult * c := by omega
    have e2 : c = i := by
      rcases Int.lt_trichotomy c i with hx | hx | hx
      · have : (f.freq.mult : Int) * (c + 1) ≤ f.freq.mult * i := Int.mul_le_mul_of_nonneg_left (by omega) (by omega)
        rw [Int.mul_add] at this
        omega
      · exact hx
      · have : (f.freq.mult : Int) * (i + 1) ≤ f.freq.mult * c := Int.mul_le_mul_of_nonneg_left (by omega) (by omega)
        rw [Int.mul_add] at this
        omega
    rw [e1, e2]

/-- The spans of a calendar marker begin where the base units of the frame of the same frequency and extent begin. -/
theorem Frame.calendar_same_starts {F f : Frame} (hF : F.Valid) (hf : f.Valid) (hc : checkGroupbyFreq f.freq F.freq = true)
    (hs : F.startTime = f.startTime) (he : F.endTime = f.endTime) {ss : List Span}
    (hp : f.cutSpan (.marker ⟨F.freq, []⟩) { first := 0, last := (f.n : Int) - 1 } = .ok ss) :
    ss.map (fun x => f.unitStart x.first) = (intRange 0 F.n).map F.unitStart := by
  have hn := hf
  have hN := hF
  unfold Frame.Valid at hn hN
  obtain ⟨ss', g1, g2, _, g4⟩ := Frame.partition_calendar (s := { first := 0, last := (f.n : Int) - 1 }) hc (by simp) (by simp only; omega) (by simp only; omega)
  have hss : ss' = ss := by
    simp only [Frame.cutSpan] at hp
    rw [g1] at hp; injection hp
  subst hss
  simp only at g2 g4
  have hfs : f.unitStart 0 = f.startTime := rfl
  rw [hfs] at g4
  have ho : F.freq.base.ordOf f.startTime = F.ord 0 := by
    rw [← hs]; unfold Frame.startTime Frame.unitStart; rw [Base.ordOf_startOf]
  apply pairwise_lt_ext
  · rw [List.pairwise_map]
    have := g2.pairwise_first
    rw [List.pairwise_map] at this
    exact this.imp (fun h => Frame.unitStart_lt h)
  · rw [List.pairwise_map]
    exact (pairwise_intRange 0 _).imp (fun h => Frame.unitStart_lt h)
  · intro t
    have first : ∃ x ∈ ss', x.first = 0 := by
      obtain ⟨k, x, hk, hx1, hx2⟩ := g2.cover (i := 0) (by omega) (by omega)
      have hm := g2.mem (List.mem_of_getElem? hk)
      exact ⟨x, List.mem_of_getElem? hk, by omega⟩
    have hend : ∀ t, t ≤ f.endTime ↔ t < F.unitStart F.n := by
      intro t
      rw [← he]; unfold Frame.endTime
      rw [Frame.unitEnd_eq]
      rw [show (F.n : Int) - 1 + 1 = F.n by omega]
      omega
    rw [List.mem_map, List.mem_map]
    constructor
    · rintro ⟨x, hx, rfl⟩
      have hm := g2.mem hx
      rcases Int.lt_or_eq_of_le hm.1 with h0 | h0
      · obtain ⟨o, ⟨m, ho1⟩, ho2, ho3⟩ := (g4 x.first h0 (by omega)).1 ⟨x, hx, rfl⟩
        have hal := Frame.marker_aligned hc (i := x.first) (o := o) ⟨m, ho1⟩ ho2 ho3
        have eo : F.freq.base.startOf o = F.unitStart m := by
          unfold Frame.unitStart Frame.ord
          rw [ho] at ho1
          unfold Frame.ord at ho1
          congr 1; omega
        rw [eo] at hal
        refine ⟨m, ?_, hal⟩
        rw [mem_intRange]
        constructor
        · rcases Int.lt_or_le m 0 with hc | hc
          · have a1 := Frame.unitStart_lt (f := F) hc
            have a2 := Frame.unitStart_lt (f := f) h0
            have a3 : F.unitStart 0 = f.unitStart 0 := hs
            omega
          · exact hc
        · rcases Int.lt_or_le m F.n with hc | hc
          · exact hc
          · have a1 := (Frame.unitStart_le_iff (f := F)).2 hc
            have a2 : f.unitStart x.first ≤ f.endTime := by
              unfold Frame.endTime
              exact Frame.unitStart_le_unitEnd' (by omega)
            have := (hend _).1 a2
            omega
      · refine ⟨0, by rw [mem_intRange]; omega, ?_⟩
        rw [← h0]; exact hs
    · rintro ⟨m, hm, rfl⟩
      rw [mem_intRange] at hm
      rcases Int.lt_or_eq_of_le hm.1 with h0 | h0
      · have a1 : f.startTime < F.unitStart m := by rw [← hs]; exact Frame.unitStart_lt h0
        have a2 : F.unitStart m ≤ f.endTime := by rw [hend]; exact Frame.unitStart_lt hm.2
        obtain ⟨i, i0, i1, i2, i3⟩ : ∃ i : Int, 0 ≤ i ∧ i < f.n ∧ f.unitStart i ≤ F.unitStart m ∧ F.unitStart m ≤ f.unitEnd i := by
          cases hg : f.getLoc (F.unitStart m) with
          | ok i => exact ⟨i, (Frame.getLoc_ok_iff _ _).1 hg⟩
          | error e => have := (Frame.getLoc_error_iff _ _).1 hg; omega
        have hd : (F.freq.mult : Int) ∣ F.ord m - F.freq.base.ordOf f.startTime := by
          rw [ho]; unfold Frame.ord; exact ⟨m, by omega⟩
        have hal := Frame.marker_aligned hc hd i2 i3
        have h0i : 0 < i := by
          rcases Int.lt_or_eq_of_le i0 with h | h
          · exact h
          · rw [← h] at hal
            have : F.unitStart m = f.startTime := hal
            omega
        obtain ⟨x, hx, hxi⟩ := (g4 i h0i (by omega)).2 ⟨F.ord m, hd, i2, i3⟩
        exact ⟨x, hx, by rw [hxi]; exact hal.symm⟩
      · obtain ⟨x, hx, hx0⟩ := first
        exact ⟨x, hx, by rw [hx0, ← h0]; exact hs.symm⟩


theorem Timeboard.Agree.same {tb tb' : Timeboard L} (hv : tb.Valid) (hv' : tb'.Valid) (h : tb.Agree tb') : tb.SameWorkshifts tb' := by
  refine ⟨h.len_eq, ?_⟩
  intro k h0 h1
  obtain ⟨w, e1, e2, _, e4, _⟩ := Workshift.exists_of_range hv none h0 h1
  obtain ⟨w', e1', e2', _, e4', _⟩ := Workshift.exists_of_range hv' none h0 (h.len_eq ▸ h1)
  refine ⟨w, w', e1, e1', ?_, ?_, ?_, ?_⟩
  · rw [h.label_eq, e4'] at e4; injection e4 with e4; exact e4.symm
  · unfold Workshift.startTime; rw [e2, e2', h.start]
  · unfold Workshift.endTime; rw [e2, e2', h.stop]
  · unfold Workshift.toTimestamp; rw [e2, e2', h.ref]

theorem Timeboard.new_amended (a : Args L) (heap : Heap L) : Timeboard.new a heap =
    match Timeboard.new { a with amendments := [] } heap with
    | .error e => .error e
    | .ok (tb, heap') => match tb.timeline.amend a.amendments with
      | .error e => .error e
      | .ok tl => .ok ({ timeline := tl, defaultSchedule := Schedule.new tl (a.defaultName.getD "on_duty") a.selector
                         schedules := [(a.defaultName.getD "on_duty", Schedule.new tl (a.defaultName.getD "on_duty") a.selector)]
                         worktimeSource := a.worktimeSource }, heap') := by
  unfold Timeboard.new
  simp only
  cases makeOrganizer a.layout with
  | error e => rfl
  | ok org =>
    simp only
    split
    · rfl
    · cases Frame.new a.freq a.start a.stop with
      | error e => rfl
      | ok f =>
        simp only
        cases Timeline.new f (some org) a.refEnd a.defaultLabel heap with
        | error e => rfl
        | ok r => rfl

theorem Timeboard.Agree.amendLocate_eq {tb tb' : Timeboard L} (h : tb.Agree tb') (b : Bool) : ∀ (am : List (Time × L)) (acc : List (Int × L)),
    tb.timeline.amendLocate b am acc = tb'.timeline.amendLocate b am acc
  | [], _ => rfl
  | (t, v) :: rest, acc => by
    unfold Timeline.amendLocate
    simp only [h.pos, amendLocate_eq h b rest]

/-- Amendments keep the workshifts of two timeboards the same. -/
theorem Timeboard.same_amended {a a' : Args L} {heap heap' k k' : Heap L} {tb tb' : Timeboard L}
    (h : Timeboard.new { a with amendments := [] } heap = .ok (tb, k)) (h' : Timeboard.new { a' with amendments := [] } heap' = .ok (tb', k'))
    (hs : tb.SameWorkshifts tb') (ham : a.amendments = a'.amendments) :
    (∀ e, Timeboard.new a heap = .error e ↔ Timeboard.new a' heap' = .error e) ∧
    ∀ x m x' m', Timeboard.new a heap = .ok (x, m) → Timeboard.new a' heap' = .ok (x', m') → x.SameWorkshifts x' := by
  have hag := hs.agree (Timeboard.Reachable.new h).valid (Timeboard.Reachable.new h').valid
  have hal := hag.amendLocate_eq false a'.amendments []
  have e1 := Timeboard.new_amended a heap
  have e2 := Timeboard.new_amended a' heap'
  rw [h] at e1
  rw [h'] at e2
  rw [ham] at e1
  simp only [Timeline.amend, hal] at e1 e2
  cases hl : tb'.timeline.amendLocate false a'.amendments [] with
  | error e0 =>
    rw [hl] at e1 e2
    simp only at e1 e2
    rw [e1, e2]
    exact ⟨fun e => by simp, fun _ _ _ _ h => by cases h⟩
  | ok located =>
    rw [hl] at e1 e2
    simp only at e1 e2
    refine ⟨fun e => by rw [e1, e2]; simp, ?_⟩
    intro x m x' m' hx hx'
    refine Timeboard.Agree.same (Timeboard.Reachable.new hx).valid (Timeboard.Reachable.new hx').valid ?_
    rw [e1] at hx
    rw [e2] at hx'
    cases hx
    cases hx'
    exact ⟨⟨hag.len, hag.start, hag.stop, hag.ref, hag.pos, hag.startTime, hag.endTime⟩, by simp only [hag.labels]⟩

theorem Timeboard.refEnd_eq {a : Args L} {heap heap' : Heap L} {tb : Timeboard L} (h : Timeboard.new a heap = .ok (tb, heap')) :
    tb.timeline.refEnd = a.refEnd := by
  obtain ⟨org, f, tl0, tl, h1, h2, h3, h4, h5, rfl⟩ := Timeboard.new_ok_iff.1 h
  have e0 : tl0.refEnd = a.refEnd := by
    unfold Timeline.new at h4
    simp only at h4
    split at h4
    · cases h4
    · injection h4 with h4; injection h4 with h4 _; rw [← h4]
  unfold Timeline.amend at h5
  split at h5
  · cases h5
  · injection h5 with h5
    simp only
    rw [← h5, ← e0]

/-- One pattern of labels over base units of a frequency, or over smaller base units with a calendar marker. -/
theorem Timeboard.base_unit_plain {a a' : Args L} {heap : Heap L} {xs : List L} {F f : Frame} (ha : a.amendments = []) (ha' : a'.amendments = [])
    (hlay : a.layout = .pattern (.list xs)) (hx : xs ≠ []) (hlay' : a'.layout = .organizer (.marker ⟨a.freq, []⟩) (xs.map .label))
    (hw : a.worktimeSource ∈ ["duration", "labels"]) (hw' : a'.worktimeSource ∈ ["duration", "labels"]) (hr : a.refEnd = a'.refEnd)
    (hF : Frame.new a.freq a.start a.stop = .ok F) (hf : Frame.new a'.freq a'.start a'.stop = .ok f) (hc : checkGroupbyFreq a'.freq a.freq = true)
    (hs : F.startTime = f.startTime) (he : F.endTime = f.endTime) :
    ∃ tb tb', Timeboard.new a heap = .ok (tb, heap) ∧ Timeboard.new a' heap = .ok (tb', heap) ∧ tb.SameWorkshifts tb' := by
  have hFv := Frame.new_valid hF
  have hfv := Frame.new_valid hf
  have hFf : F.freq = a.freq := by rw [(Frame.new_ok_iff.1 hF).2]
  have hff : f.freq = a'.freq := by rw [(Frame.new_ok_iff.1 hf).2]
  rw [← hFf, ← hff] at hc
  have hn := hfv
  unfold Frame.Valid at hn
  obtain ⟨tb, t1, t2, t3⟩ := C06_pattern (heap := heap) ha hlay hx hw hF
  obtain ⟨ss, g1, g2, _, _⟩ := Frame.partition_calendar (s := { first := 0, last := (f.n : Int) - 1 }) hc (by simp) (by simp only; omega) (by simp only; omega)
  have hcut : f.cutSpan (.marker ⟨F.freq, []⟩) { first := 0, last := (f.n : Int) - 1 } = .ok ss := g1
  obtain ⟨tb', u1, u2, u3⟩ := Timeboard.labels_organizer (heap := heap) ha' hlay' hx hw' hf (hFf ▸ hcut)
  have hst := Frame.calendar_same_starts hFv hfv hc hs he hcut
  refine ⟨tb, tb', t1, u1, ?_⟩
  have hv := (Timeboard.Reachable.new t1).valid
  have hv' := (Timeboard.Reachable.new u1).valid
  have key : ∀ (k : Nat) (x : Span), ss[k]? = some x → k < F.n ∧ f.unitStart x.first = F.unitStart k := by
    intro k x hk
    have : (ss.map (fun x => f.unitStart x.first))[k]? = some (f.unitStart x.first) := by rw [List.getElem?_map, hk]; rfl
    rw [hst, List.getElem?_map] at this
    have hlen : k < (intRange 0 F.n).length := by
      rcases Nat.lt_or_ge k (intRange 0 F.n).length with h | h
      · exact h
      · rw [List.getElem?_eq_none h] at this; cases this
    rw [length_intRange] at hlen
    rw [getElem?_intRange (by omega)] at this
    simp at this
    exact ⟨by omega, this.symm⟩
  have hlen : ss.length = F.n := by
    have := congrArg List.length hst
    rw [List.length_map, List.length_map, length_intRange] at this
    omega
  have u4 : ∀ t l, (∃ d, tb'.Starts t d l) ↔ ∃ k : Nat, k < F.n ∧ t = F.unitStart k ∧ cyclic xs k = some l := by
    intro t l
    constructor
    · rintro ⟨d, hd⟩
      obtain ⟨k, x, hk, ht, _, hl⟩ := (u3 t d l).1 hd
      obtain ⟨k1, k2⟩ := key k x hk
      exact ⟨k, k1, by rw [ht, k2], hl⟩
    · rintro ⟨k, hk, ht, hl⟩
      have hx : ss[k]? = some (ss[k]'(by omega)) := List.getElem?_eq_getElem _
      exact ⟨_, (u3 t _ l).2 ⟨k, _, hx, by rw [ht, (key k _ hx).2], rfl, hl⟩⟩
  have t4 : ∀ t l, (∃ d, tb.Starts t d l) ↔ ∃ k : Nat, k < F.n ∧ t = F.unitStart k ∧ cyclic xs k = some l := by
    intro t l
    constructor
    · rintro ⟨d, hd⟩
      obtain ⟨k, k0, k1, k2, k3⟩ := hv.of_starts hd
      have hb := hv.wf.bnd_range k0 k1
      rw [t2] at hb k2
      obtain ⟨l', q1, q2⟩ := t3 (tb.timeline.bnd k).toNat (by omega)
      rw [show (((tb.timeline.bnd k).toNat : Nat) : Int) = tb.timeline.bnd k by omega] at q1
      obtain ⟨j, j0, j1, j2, j3⟩ := hv.of_starts q1
      rw [t2] at j2
      have hjb : tb.timeline.bnd k = tb.timeline.bnd j := by
        rcases Int.lt_trichotomy (tb.timeline.bnd k) (tb.timeline.bnd j) with hx | hx | hx
        · have := Frame.unitStart_lt (f := F) hx; omega
        · exact hx
        · have := Frame.unitStart_lt (f := F) hx; omega
      have hjk : j = k := by
        rcases Int.lt_trichotomy j k with hx | hx | hx
        · have := hv.wf.bnd_lt_bnd j0 hx (by omega); omega
        · exact hx
        · have := hv.wf.bnd_lt_bnd k0 hx (by omega); omega
      subst hjk
      rw [j3] at k3; injection k3 with k3
      exact ⟨(tb.timeline.bnd j).toNat, by omega, by rw [k2]; congr 1; omega, by rw [q2, k3]⟩
    · rintro ⟨k, hk, ht, hl⟩
      obtain ⟨l', q1, q2⟩ := t3 k hk
      rw [hl] at q2; injection q2 with q2
      exact ⟨1, by rw [ht, q2]; exact q1⟩
  refine Timeboard.sameWorkshifts_of_starts hv hv' (fun t l => by rw [t4, u4]) ?_ ?_
  · unfold Timeboard.endTime; rw [t2, u2, he]
  · rw [Timeboard.refEnd_eq t1, Timeboard.refEnd_eq u1, hr]

end TB
