import Verif.Lemmas.Reading
import Verif.Lemmas.Amend
import Verif.Lemmas.Timeboard
/-! The timeline made of an organized frame, and its amendments. -/
namespace TB
variable {L : Type}

/-- The timeline is the list of pieces. -/
def Timeline.Holds (tl : Timeline L) (ps : List (Piece L)) : Prop :=
  Tiles 0 ((tl.frame.n : Int) - 1) (ps.map Piece.span) ∧ tl.wsIdx = ps.map Piece.first ∧ tl.labels = ps.map Piece.label

theorem Organized.nonzeroMask {st : TLState L} {n : Nat} {ps : List (Piece L)} (h : Organized st 0 ((n : Int) - 1) ps) :
    nonzeroMask st.mask n = ps.map Piece.first := by
  obtain ⟨ht, hp⟩ := h
  apply pairwise_lt_ext (pairwise_nonzeroMask _ _)
  · have := ht.pairwise_first
    rw [List.map_map] at this
    exact this
  · intro x
    rw [mem_nonzeroMask, List.mem_map]
    constructor
    · rintro ⟨h0, h1, h2⟩
      obtain ⟨k, s, hk, a1, a2⟩ := ht.cover h0 (show x ≤ (n : Int) - 1 by omega)
      rw [List.getElem?_map, Option.map_eq_some_iff] at hk
      obtain ⟨p, hk, rfl⟩ := hk
      have hm := List.mem_of_getElem? hk
      refine ⟨p, hm, ?_⟩
      simp only [Piece.span] at a1 a2
      rcases Int.lt_or_le p.first x with hlt | hle
      · have := (hp p hm).2.2 x hlt a2
        rw [this] at h2; cases h2
      · omega
    · rintro ⟨p, hm, rfl⟩
      have := ht.mem (List.mem_map_of_mem (f := Piece.span) hm)
      simp only [Piece.span] at this
      exact ⟨this.1, by omega, (hp p hm).2.1⟩

theorem Organized.labels {st : TLState L} {n : Nat} {ps : List (Piece L)} (h : Organized st 0 ((n : Int) - 1) ps) :
    (TB.nonzeroMask st.mask n).map st.labels = ps.map Piece.label := by
  rw [h.nonzeroMask, List.map_map]
  apply List.map_congr_left
  intro p hp
  exact (h.2 p hp).1

theorem Timeline.Holds.len {tl : Timeline L} {ps : List (Piece L)} (h : tl.Holds ps) : tl.len = (ps.length : Int) := by
  unfold Timeline.len
  rw [h.2.1]; simp

theorem Timeline.Holds.bnd {tl : Timeline L} {ps : List (Piece L)} (h : tl.Holds ps) {k : Nat} {p : Piece L}
    (hk : ps[k]? = some p) : tl.bnd k = p.first ∧ tl.bnd (k + 1) = p.last + 1 := by
  constructor
  · unfold Timeline.bnd
    rw [h.2.1]
    simp [hk]
  · have hk' : (ps.map Piece.span)[k]? = some p.span := by rw [List.getElem?_map, hk]; rfl
    rcases h.1.get_next hk' with ⟨h1, h2⟩ | ⟨y, h1, h2⟩
    · rw [List.length_map] at h1
      rw [Timeline.bnd_ge (by rw [h.len]; omega)]
      have : p.span.last = p.last := rfl
      omega
    · rw [List.getElem?_map, Option.map_eq_some_iff] at h1
      obtain ⟨q, h1, rfl⟩ := h1
      unfold Timeline.bnd
      rw [h.2.1, show ((k : Int) + 1).toNat = k + 1 by omega]
      simp [h1]
      exact h2

theorem Timeline.Holds.consistsOf {tb : Timeboard L} {ps : List (Piece L)} (wf : tb.timeline.WF) (h : tb.timeline.Holds ps) :
    tb.ConsistsOf tb.timeline.frame ps := by
  refine ⟨rfl, h.len, ?_⟩
  intro k p hk
  obtain ⟨b1, b2⟩ := h.bnd hk
  have hlt : k < ps.length := by
    rcases Nat.lt_or_ge k ps.length with h' | h'
    · exact h'
    · rw [List.getElem?_eq_none h'] at hk; cases hk
  have h1 : (k : Int) < tb.timeline.len := by rw [h.len]; omega
  refine ⟨{ loc := k, label := p.label, schedule := tb.defaultSchedule }, ?_, ?_, ?_, ?_, rfl⟩
  · unfold Workshift.new Timeline.label
    rw [h.2.2, pyGet?_lt _ (by omega) (by simpa using hlt)]
    have : ps[k] = p := by
      rw [List.getElem?_eq_getElem hlt] at hk; injection hk
    simp [orIndexError, this]
  · exact (wf.wsStart_eq (by omega) h1).trans (by rw [b1])
  · refine (wf.wsEnd_eq (by omega) h1).trans ?_
    rw [b2, Frame.unitEnd_eq]
  · refine (wf.wsDuration_eq (by omega) h1).trans ?_
    rw [b1, b2]; congr 1; omega

theorem Timeline.Holds.wsPosition {tl : Timeline L} {ps : List (Piece L)} (wf : tl.WF) (h : tl.Holds ps) {k : Nat} {p : Piece L}
    (hk : ps[k]? = some p) (t : Time) :
    tl.wsPosition t = .ok k ↔ (tl.frame.unitStart p.first ≤ t ∧ t ≤ tl.frame.unitEnd p.last) := by
  obtain ⟨b1, b2⟩ := h.bnd hk
  have hlt : k < ps.length := by
    rcases Nat.lt_or_ge k ps.length with h' | h'
    · exact h'
    · rw [List.getElem?_eq_none h'] at hk; cases hk
  rw [wf.wsPosition_ok_iff, b1, b2, Frame.unitEnd_eq, h.len]
  constructor
  · rintro ⟨_, _, h1, h2⟩; exact ⟨h1, by omega⟩
  · rintro ⟨h1, h2⟩; exact ⟨by omega, by omega, h1, by omega⟩

/-- The amendments located at a workshift are as many as those which fall on it. -/
theorem Timeline.Holds.count {tl : Timeline L} {ps : List (Piece L)} (wf : tl.WF) (h : tl.Holds ps) {k : Nat} {p : Piece L}
    (hk : ps[k]? = some p) (items : List (Time × L)) :
    ((tl.located items).map Prod.fst).count (k : Int) = (p.hits tl.frame items).length := by
  induction items with
  | nil => rfl
  | cons x items ih =>
    obtain ⟨t, v⟩ := x
    have hw := h.wsPosition wf hk t
    unfold Piece.hits at ih ⊢
    rw [List.filter_cons]
    cases hp : tl.wsPosition t with
    | error e =>
      rw [Timeline.located_cons_error hp, ih]
      rw [hp] at hw
      have : ¬ (tl.frame.unitStart p.first ≤ t ∧ t ≤ tl.frame.unitEnd p.last) := fun hh => by cases hw.2 hh
      simp [this]
    | ok j =>
      rw [Timeline.located_cons_ok hp, List.map_cons, List.count_cons, ih]
      rw [hp] at hw
      simp only [Except.ok.injEq] at hw
      by_cases hj : j = (k : Int)
      · have := hw.1 hj
        simp [this, hj]
      · have : ¬ (tl.frame.unitStart p.first ≤ t ∧ t ≤ tl.frame.unitEnd p.last) := fun hh => hj (hw.2 hh)
        simp [this, hj]

theorem Timeline.Holds.nodup {tl : Timeline L} {ps : List (Piece L)} (wf : tl.WF) (h : tl.Holds ps) (items : List (Time × L)) :
    ((tl.located items).map Prod.fst).Nodup ↔ ∀ p ∈ ps, ¬ 2 ≤ (p.hits tl.frame items).length := by
  rw [List.nodup_iff_count]
  constructor
  · intro hc p hp
    obtain ⟨k, hk⟩ := List.getElem?_of_mem hp
    have := hc k
    rw [h.count wf hk] at this
    omega
  · intro hc k
    by_cases hm : k ∈ (tl.located items).map Prod.fst
    · rw [List.mem_map] at hm
      obtain ⟨⟨j, v⟩, hm, rfl⟩ := hm
      obtain ⟨t, _, ht⟩ := wf.mem_located.1 hm
      obtain ⟨h0, h1, _⟩ := (wf.wsPosition_ok_iff t j).1 ht
      rw [h.len] at h1
      have hlt : j.toNat < ps.length := by omega
      have hk : ps[j.toNat]? = some ps[j.toNat] := List.getElem?_eq_getElem hlt
      have := h.count wf hk items
      rw [show ((j.toNat : Nat) : Int) = j by omega] at this
      have h3 := hc _ (List.getElem_mem hlt)
      show ((tl.located items).map Prod.fst).count j ≤ 1
      omega
    · rw [List.count_eq_zero_of_not_mem hm]; omega

theorem Timeline.Holds.amend {tl : Timeline L} {ps : List (Piece L)} (wf : tl.WF) (h : tl.Holds ps) (items : List (Time × L)) :
    match amendPieces tl.frame items ps with
    | .error e => tl.amend items = .error e
    | .ok qs => ∃ tl', tl.amend items = .ok tl' ∧ tl'.Holds qs := by
  unfold amendPieces
  by_cases hc : ps.any (fun p => decide (2 ≤ (p.hits tl.frame items).length)) = true
  · simp only [hc, if_true]
    rw [wf.amend_error_iff]
    refine ⟨rfl, ?_⟩
    rw [h.nodup wf]
    rw [List.any_eq_true] at hc
    obtain ⟨p, hp, hh⟩ := hc
    simp only [decide_eq_true_eq] at hh
    intro hn
    exact hn p hp hh
  · have hn : ((tl.located items).map Prod.fst).Nodup := by
      rw [h.nodup wf]
      intro p hp hh
      apply hc
      rw [List.any_eq_true]
      exact ⟨p, hp, by simpa using hh⟩
    simp only [hc]
    refine ⟨_, wf.amend_ok_iff.2 ⟨hn, rfl⟩, ?_, ?_, ?_⟩
    · have := h.1
      rw [List.map_map]
      exact this
    · simp only [h.2.1]
      simp [Function.comp_def]
    · obtain ⟨l1, l2⟩ := wf.amend_labels (wf.amend_ok_iff.2 ⟨hn, rfl⟩)
      apply List.ext_getElem?
      intro k
      by_cases hk : k < ps.length
      · have hk' : ps[k]? = some ps[k] := List.getElem?_eq_getElem hk
        have hw := h.wsPosition wf hk'
        rw [List.map_map, List.getElem?_map, hk']
        simp only [Option.map_some, Function.comp_apply]
        cases hh : (ps[k]).hits tl.frame items with
        | nil =>
          have := l2 k (by omega) (by
            intro t v hm ht
            have hm' : (t, v) ∈ (ps[k]).hits tl.frame items := by
              unfold Piece.hits
              rw [List.mem_filter]
              exact ⟨hm, by simpa using (hw t).1 ht⟩
            rw [hh] at hm'; cases hm')
          rw [Int.toNat_natCast] at this
          refine this.trans ?_
          rw [h.2.2, List.getElem?_map, hk']; rfl
        | cons x rest =>
          have hm' : x ∈ (ps[k]).hits tl.frame items := by rw [hh]; simp
          unfold Piece.hits at hm'
          rw [List.mem_filter] at hm'
          obtain ⟨hm, ht⟩ := hm'
          have := l1 x.1 x.2 k hm ((hw x.1).2 (by simpa using ht))
          rw [Int.toNat_natCast] at this
          exact this
      · rw [List.getElem?_eq_none (by simp only [length_ilocAssign, h.2.2, List.length_map]; omega), List.getElem?_eq_none]
        simp only [List.length_map]; omega

theorem Layout.read_whole {f : Frame} (hn : 0 < f.n) (dl : L) (xs : List L) (m : Memory L) :
    Layout.read f dl (.organizer (.marks []) [.pattern (.list xs)]) { first := 0, last := (f.n : Int) - 1 } m =
      Layout.read f dl (.pattern (.list xs)) { first := 0, last := (f.n : Int) - 1 } m := by
  have hc : f.cutSpan (.marks []) { first := 0, last := (f.n : Int) - 1 } = .ok [{ first := 0, last := (f.n : Int) - 1 }] := by
    obtain ⟨ss, h1⟩ := Frame.createSubspans_exists (f := f) (s := { first := 0, last := (f.n : Int) - 1 }) [] (by simp) (by simp only; omega) (by simp only; omega)
    have h2 := h1
    rw [Frame.createSubspans_ok_iff] at h2
    obtain ⟨_, _, _, h3⟩ := h2
    simp only [Frame.cutSpan, Frame.partitionAtMarks]
    rw [h1, h3]
    rfl
  have hc : f.cut { first := 0, last := (f.n : Int) - 1 } (.marks []) = .ok [{ first := 0, last := (f.n : Int) - 1 }] := by
    rw [← Frame.cutSpan_eq _ (by simp) (by simp only; omega) (by simp only; omega)]
    exact hc
  conv => lhs; unfold Layout.read
  simp only [hc, Layout.readAll, List.isEmpty_cons, Bool.false_eq_true, if_false, readInTurns, cyclic, List.length_cons, List.length_nil,
    Nat.zero_mod, List.getElem?_cons_zero]
  cases Layout.read f dl (.pattern (.list xs)) { first := 0, last := (f.n : Int) - 1 } m with
  | error e => rfl
  | ok r => simp

theorem Args.frame_eq (a : Args L) : a.frame = Frame.new a.freq a.start a.stop := by
  unfold Args.frame
  split
  · rename_i h
    rw [Frame.new_error_iff.2 ⟨rfl, h⟩]
  · rename_i h
    rw [Frame.new_over (by omega)]

/-- A new timeboard, its layout being an organizer. -/
theorem Timeboard.new_reads_organizer (a : Args L) (heap : Heap L) (m : Memory L) (hm : heap.Shows m) (org : Layout L)
    (ho : makeOrganizer a.layout = .ok org) :
    match a.readLayout org m with
    | .error e => Timeboard.new a heap = .error e
    | .ok (f, ps, m') => ∃ tb heap', Timeboard.new a heap = .ok (tb, heap') ∧ heap'.Shows m' ∧ tb.ConsistsOf f ps := by
  unfold Args.readLayout Timeboard.new
  rw [ho, Args.frame_eq]
  simp only
  by_cases hw : a.worktimeSource ≠ "duration" ∧ a.worktimeSource ≠ "labels"
  · have : a.worktimeSource ∉ ["duration", "labels"] := by simp [hw]
    simp [hw, this]
  · have hw' : ¬ a.worktimeSource ∉ ["duration", "labels"] := by
      simp only [List.mem_cons, List.not_mem_nil, or_false]
      intro hh
      apply hw
      exact ⟨fun e => hh (.inl e), fun e => hh (.inr e)⟩
    rw [if_neg hw, if_neg hw']
    cases hf : Frame.new a.freq a.start a.stop with
    | error e => rfl
    | ok f =>
      simp only
      have hn : 0 < f.n := Frame.new_valid hf
      have hr := Layout.run_reads f a.defaultLabel org { first := 0, last := (f.n : Int) - 1 }
        { labels := fun _ => a.defaultLabel, mask := fun _ => true, heap := heap } m (by simp; omega) ⟨by simp, by simp only; omega⟩ hm
        (fun i _ _ => ⟨rfl, rfl⟩)
      unfold OutcomeOf at hr
      cases hl : Layout.read f a.defaultLabel org { first := 0, last := (f.n : Int) - 1 } m with
      | error e =>
        rw [hl] at hr
        unfold Timeline.new
        simp only at hr ⊢
        rw [hr]
      | ok r =>
        obtain ⟨ps, m'⟩ := r
        rw [hl] at hr
        obtain ⟨st, hr, hs, hog⟩ := hr
        have ht : Timeline.new f (some org) a.refEnd a.defaultLabel heap = .ok
            ({ frame := f, wsIdx := nonzeroMask st.mask f.n, labels := (nonzeroMask st.mask f.n).map st.labels
               frameband := maskedCounter st.mask f.n 0 0, refEnd := a.refEnd }, st.heap) := by
          unfold Timeline.new
          simp only
          rw [hr]
        have wf := (Timeline.new_wf hn ht).1
        rw [ht]
        have hh : Timeline.Holds ({ frame := f, wsIdx := nonzeroMask st.mask f.n, labels := (nonzeroMask st.mask f.n).map st.labels,
                                    frameband := maskedCounter st.mask f.n 0 0, refEnd := a.refEnd } : Timeline L) ps :=
          ⟨hog.1, hog.nonzeroMask, hog.labels⟩
        have ha := hh.amend wf a.amendments
        simp only at ha ⊢
        cases hq : amendPieces f a.amendments ps with
        | error e =>
          rw [hq] at ha
          simp only at ha ⊢
          rw [ha]
        | ok qs =>
          rw [hq] at ha
          obtain ⟨tl', ha, hh'⟩ := ha
          simp only
          rw [ha]
          refine ⟨_, _, rfl, hs, ?_⟩
          have wf' := Timeline.amend_wf wf ha
          have e := (Timeline.amend_frame ha).1
          have := Timeline.Holds.consistsOf (tb := { timeline := tl', defaultSchedule := Schedule.new tl' (a.defaultName.getD "on_duty") a.selector
                                                     schedules := [(a.defaultName.getD "on_duty", Schedule.new tl' (a.defaultName.getD "on_duty") a.selector)]
                                                     worktimeSource := a.worktimeSource }) wf' hh'
          rw [show f = tl'.frame from e.symm]
          exact this

theorem Args.readLayout_whole (a : Args L) (xs : List L) (m : Memory L) :
    a.readLayout (.organizer (.marks []) [.pattern (.list xs)]) m = a.readLayout (.pattern (.list xs)) m := by
  unfold Args.readLayout
  rw [Args.frame_eq]
  split
  · rfl
  · split
    · rfl
    · rename_i f hf
      rw [Layout.read_whole (Frame.new_valid hf)]

/-- A new timeboard. -/
theorem Timeboard.new_reads (a : Args L) (heap : Heap L) (m : Memory L) (hm : heap.Shows m) :
    match a.read m with
    | .error e => Timeboard.new a heap = .error e
    | .ok (f, ps, m') => ∃ tb heap', Timeboard.new a heap = .ok (tb, heap') ∧ heap'.Shows m' ∧ tb.ConsistsOf f ps := by
  have h := Timeboard.new_reads_organizer a heap m hm
  unfold Args.read
  cases hl : a.layout with
  | label l => simp only; unfold Timeboard.new; rw [hl]; rfl
  | pattern p =>
    cases p with
    | rp id => simp only; unfold Timeboard.new; rw [hl]; rfl
    | list xs =>
      simp only
      rw [← Args.readLayout_whole]
      exact h _ (by rw [hl]; rfl)
  | organizer c es => exact h _ (by rw [hl]; rfl)
  | organizerRP c id => exact h _ (by rw [hl]; rfl)

end TB
