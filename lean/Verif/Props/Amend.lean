import Verif.Lemmas.GetInterval
import Verif.Examples.Boards
/-! Properties C12-C14: amendments. -/
namespace TB
open TB.Ex
variable {L : Type}

/-- The timeboard without amendments. -/
def Args.plain (a : Args L) : Args L := { a with amendments := [] }

theorem Timeline.amend_nil (tl : Timeline L) : tl.amend [] = .ok tl := rfl

/-- A timeboard and the corresponding one without amendments. -/
theorem Timeboard.new_plain {a : Args L} {heap heap' : Heap L} {tb : Timeboard L} (h : Timeboard.new a heap = .ok (tb, heap')) :
    ∃ tb0, Timeboard.new a.plain heap = .ok (tb0, heap') ∧ tb0.timeline.WF ∧ tb0.timeline.amend a.amendments = .ok tb.timeline := by
  obtain ⟨org, frame, tl0, tl, h1, h2, h3, h4, h5, rfl⟩ := Timeboard.new_ok_iff.1 h
  have hwf := (Timeline.new_wf (Frame.new_valid h3) h4).1
  exact ⟨_, Timeboard.new_ok_iff.2 ⟨org, frame, tl0, tl0, h1, h2, h3, h4, rfl, rfl⟩, hwf, h5⟩

theorem Timeboard.new_of_plain {a : Args L} {heap heap' : Heap L} {tb0 : Timeboard L}
    (h : Timeboard.new a.plain heap = .ok (tb0, heap')) :
    tb0.timeline.WF ∧
    (∀ tl, tb0.timeline.amend a.amendments = .ok tl → ∃ tb, Timeboard.new a heap = .ok (tb, heap') ∧ tb.timeline = tl) ∧
    (∀ e, tb0.timeline.amend a.amendments = .error e → Timeboard.new a heap = .error e) := by
  obtain ⟨org, frame, tl0, tl, h1, h2, h3, h4, h5, rfl⟩ := Timeboard.new_ok_iff.1 h
  have hwf := (Timeline.new_wf (Frame.new_valid h3) h4).1
  cases h5
  refine ⟨hwf, ?_, ?_⟩
  · intro tl ht
    exact ⟨_, Timeboard.new_ok_iff.2 ⟨org, frame, _, tl, h1, h2, h3, h4, ht, rfl⟩, rfl⟩
  · intro e he
    unfold Timeboard.new
    have h1' : makeOrganizer a.layout = .ok org := h1
    have h2' : a.worktimeSource ∈ ["duration", "labels"] := h2
    have h3' : Frame.new a.freq a.start a.stop = .ok frame := h3
    have h4' : Timeline.new frame (some org) a.refEnd a.defaultLabel heap = .ok (tl0, heap') := h4
    have he' : tl0.amend a.amendments = .error e := he
    rw [h1']
    simp only [h2', not_true_eq_false, if_false, h3', h4', he']

theorem Timeline.position_congr {tl tl' : Timeline L} (h1 : tl'.frame = tl.frame) (h2 : tl'.wsIdx = tl.wsIdx)
    (h3 : tl'.frameband = tl.frameband) (t : Time) : tl'.wsPosition t = tl.wsPosition t := by
  unfold Timeline.wsPosition
  rw [h1, h2, h3]

/-- **C12.** After construction a workshift which contains the key of an amendment has its label, any other
workshift has the label it has on the timeboard without amendments; both timeboards have the same workshift boundaries. -/
theorem C12_amendments_exact {a : Args L} {heap heap' : Heap L} {tb : Timeboard L} (h : Timeboard.new a heap = .ok (tb, heap')) :
    ∃ tb0, Timeboard.new a.plain heap = .ok (tb0, heap') ∧
      tb.startTime = tb0.startTime ∧ tb.endTime = tb0.endTime ∧ tb.timeline.len = tb0.timeline.len ∧
      ∀ k, 0 ≤ k → k < tb.timeline.len → ∃ w w0, Workshift.new tb k = .ok w ∧ Workshift.new tb0 k = .ok w0 ∧
        w.startTime tb = w0.startTime tb0 ∧ w.endTime tb = w0.endTime tb0 ∧ w.toTimestamp tb = w0.toTimestamp tb0 ∧
        w.duration tb = w0.duration tb0 ∧
        (∀ t v, (t, v) ∈ a.amendments → tb.At t k → w.label = v) ∧
        ((∀ t v, (t, v) ∈ a.amendments → ¬ tb.At t k) → w.label = w0.label) := by
  obtain ⟨tb0, g1, wf0, g2⟩ := Timeboard.new_plain h
  have hv : tb.Valid := (Timeboard.Reachable.new h).valid
  have hv0 : tb0.Valid := (Timeboard.Reachable.new g1).valid
  obtain ⟨e1, e2, e3, e4, e5⟩ := Timeline.amend_frame g2
  obtain ⟨l1, l2⟩ := wf0.amend_labels g2
  have hlen : tb.timeline.len = tb0.timeline.len := by unfold Timeline.len; rw [e2]
  have hbnd : ∀ k, tb.timeline.bnd k = tb0.timeline.bnd k := by intro k; unfold Timeline.bnd; rw [e2, e1]
  have href : ∀ k, tb.timeline.refTime k = tb0.timeline.refTime k := by
    intro k; unfold Timeline.refTime; rw [e4, e1, hbnd, hbnd]
  refine ⟨tb0, g1, by unfold Timeboard.startTime; rw [e1], by unfold Timeboard.endTime; rw [e1], hlen, ?_⟩
  intro k h0 h1
  have h1' : k < tb0.timeline.len := by omega
  obtain ⟨w, hw, hwl, _, hlab, hs, he, hr, hd⟩ := Workshift.exists_of_range hv none h0 h1
  obtain ⟨w0, hw0, hwl0, _, hlab0, hs0, he0, hr0, hd0⟩ := Workshift.exists_of_range hv0 none h0 h1'
  have hget : tb.timeline.labels[k.toNat]? = some w.label := by
    obtain ⟨hh, e⟩ := hv.wf.label_eq h0 h1
    rw [hlab] at e
    rw [List.getElem?_eq_getElem hh]; simp only [Except.ok.injEq] at e; rw [e]
  have hget0 : tb0.timeline.labels[k.toNat]? = some w0.label := by
    obtain ⟨hh, e⟩ := hv0.wf.label_eq h0 h1'
    rw [hlab0] at e
    rw [List.getElem?_eq_getElem hh]; simp only [Except.ok.injEq] at e; rw [e]
  have hpos : ∀ t, tb.At t k ↔ tb0.timeline.wsPosition t = .ok k := by
    intro t
    rw [hv.at_iff, Timeline.position_congr e1 e2 e3]
  refine ⟨w, w0, hw, hw0, by rw [hs, hs0, e1, hbnd], by rw [he, he0, e1, hbnd], by rw [hr, hr0, href], by rw [hd, hd0, hbnd, hbnd], ?_, ?_⟩
  · intro t v hm hat
    have := l1 t v k hm ((hpos t).1 hat)
    rw [hget] at this
    simpa using this
  · intro hno
    have := l2 k h0 (fun t v hm hp => hno t v hm ((hpos t).2 hp))
    rw [hget, hget0] at this
    simpa using this

example : (week.getWorkshift (date 2017 1 8)).map (fun w => w.label) = .ok 7 ∧
    (week.getWorkshift (date 2017 1 15)).map (fun w => w.label) = .ok 0 ∧
    (week.getWorkshift (date 2017 1 2)).map (fun w => w.label) = .ok 0 ∧
    (week.getWorkshift (date 2017 1 9)).map (fun w => w.label) = .ok 8 ∧
    (Timeboard.new weekArgs.plain heap0).map (fun r => (r.1.timeline.labels[1]?, r.1.timeline.labels[7]?)) =
      .ok (some 8, some 0) := by decide +kernel

/-- Two amendments which refer to the same workshift. -/
def Timeboard.Conflict (tb : Timeboard L) (items : List (Time × L)) : Prop :=
  ∃ (i j : Nat) (p q : Time × L) (k : Int), i < j ∧ items[i]? = some p ∧ items[j]? = some q ∧ tb.At p.1 k ∧ tb.At q.1 k

theorem located_nodup_iff {tb : Timeboard L} (hv : tb.Valid) (items : List (Time × L)) :
    ((tb.timeline.located items).map Prod.fst).Nodup ↔ ¬ tb.Conflict items := by
  induction items with
  | nil => simp [Timeline.located, Timeboard.Conflict]
  | cons x xs ih =>
    obtain ⟨t, v⟩ := x
    have hcons : tb.Conflict ((t, v) :: xs) ↔ tb.Conflict xs ∨ ∃ k, tb.At t k ∧ ∃ q ∈ xs, tb.At q.1 k := by
      constructor
      · rintro ⟨i, j, p, q, k, hij, hi, hj, hp, hq⟩
        cases j with
        | zero => omega
        | succ j =>
          rw [List.getElem?_cons_succ] at hj
          cases i with
          | zero =>
            simp at hi; subst hi
            exact .inr ⟨k, hp, q, List.mem_of_getElem? hj, hq⟩
          | succ i =>
            rw [List.getElem?_cons_succ] at hi
            exact .inl ⟨i, j, p, q, k, by omega, hi, hj, hp, hq⟩
      · rintro (⟨i, j, p, q, k, hij, hi, hj, hp, hq⟩ | ⟨k, hk, q, hq, hqk⟩)
        · exact ⟨i + 1, j + 1, p, q, k, by omega, by simpa using hi, by simpa using hj, hp, hq⟩
        · obtain ⟨j, hj⟩ := List.getElem?_of_mem hq
          exact ⟨0, j + 1, (t, v), q, k, by omega, rfl, by simpa using hj, hk, hqk⟩
    rw [hcons, not_or, ← ih]
    cases hp : tb.timeline.wsPosition t with
    | error e =>
      rw [Timeline.located_cons_error hp]
      constructor
      · intro h; refine ⟨h, ?_⟩
        rintro ⟨k, hk, _⟩
        rw [hv.at_iff, hp] at hk; cases hk
      · exact fun h => h.1
    | ok k =>
      rw [Timeline.located_cons_ok hp, List.map_cons, List.nodup_cons]
      have hm : k ∈ (tb.timeline.located xs).map Prod.fst ↔ ∃ q ∈ xs, tb.At q.1 k := by
        rw [List.mem_map]
        constructor
        · rintro ⟨⟨k', v'⟩, hm, rfl⟩
          obtain ⟨t', ht', hpos⟩ := hv.wf.mem_located.1 hm
          exact ⟨(t', v'), ht', hv.at_iff.2 hpos⟩
        · rintro ⟨⟨t', v'⟩, hq, hat⟩
          exact ⟨(k, v'), hv.wf.mem_located.2 ⟨t', hq, hv.at_iff.1 hat⟩, rfl⟩
      simp only
      rw [hm]
      constructor
      · rintro ⟨h1, h2⟩
        refine ⟨h2, ?_⟩
        rintro ⟨k', hk', hq⟩
        rw [hv.at_iff, hp] at hk'
        cases hk'
        exact h1 hq
      · rintro ⟨h1, h2⟩
        exact ⟨fun hq => h2 ⟨k, hv.at_iff.2 hp, hq⟩, h1⟩

/-- **C13.** Given a timeboard without amendments, the timeboard with amendments is refused with KeyError if and only if two
amendments refer to the same workshift; otherwise it is built.  Keys outside the timeboard do not matter. -/
theorem C13_conflict_rejected {a : Args L} {heap heap' : Heap L} {tb0 : Timeboard L}
    (h : Timeboard.new a.plain heap = .ok (tb0, heap')) :
    (tb0.Conflict a.amendments → Timeboard.new a heap = .error .keyError) ∧
    (¬ tb0.Conflict a.amendments → ∃ tb, Timeboard.new a heap = .ok (tb, heap')) ∧
    (tb0.Conflict a.amendments ↔ tb0.Conflict (a.amendments.filter (fun p => decide (tb0.startTime ≤ p.1 ∧ p.1 ≤ tb0.endTime)))) := by
  have hv0 : tb0.Valid := (Timeboard.Reachable.new h).valid
  obtain ⟨wf, h1, h2⟩ := Timeboard.new_of_plain h
  refine ⟨?_, ?_, ?_⟩
  · intro hc
    refine h2 _ (wf.amend_error_iff.2 ⟨rfl, ?_⟩)
    rw [located_nodup_iff hv0]; simpa using hc
  · intro hc
    obtain ⟨tb, htb, _⟩ := h1 _ (wf.amend_ok_iff.2 ⟨(located_nodup_iff hv0 _).2 hc, rfl⟩)
    exact ⟨tb, htb⟩
  · have hloc : ∀ items : List (Time × L), tb0.timeline.located (items.filter (fun p => decide (tb0.startTime ≤ p.1 ∧ p.1 ≤ tb0.endTime))) =
        tb0.timeline.located items := by
      intro items
      induction items with
      | nil => rfl
      | cons x xs ih =>
        obtain ⟨t, v⟩ := x
        by_cases hx : tb0.startTime ≤ t ∧ t ≤ tb0.endTime
        · rw [List.filter_cons_of_pos (by simpa using hx)]
          obtain ⟨c, hc⟩ := wf.exists_position hx.1 hx.2
          rw [Timeline.located_cons_ok hc, Timeline.located_cons_ok hc, ih]
        · rw [List.filter_cons_of_neg (by simpa using hx), ih]
          cases hp : tb0.timeline.wsPosition t with
          | error e => rw [Timeline.located_cons_error hp]
          | ok k => exact absurd (wf.position_in_frame hp) hx
    have := located_nodup_iff hv0 a.amendments
    have := located_nodup_iff hv0 (a.amendments.filter (fun p => decide (tb0.startTime ≤ p.1 ∧ p.1 ≤ tb0.endTime)))
    rw [hloc] at this
    rw [located_nodup_iff hv0] at this
    exact ⟨fun hc => Classical.byContradiction fun hn => this.2 hn hc, fun hc => Classical.byContradiction fun hn => this.1 hn hc⟩

theorem amendLocate_raise_exact {tl : Timeline L} : ∀ (items : List (Time × L)) (acc : List (Int × L)) (e : Err),
    tl.amendLocate true items acc = .error e ↔
      ∃ pre t v rest, items = pre ++ (t, v) :: rest ∧ (∃ acc', tl.amendLocate true pre acc = .ok acc' ∧
        (((tl.wsPosition t = .error e)) ∨
         (∃ k, tl.wsPosition t = .ok k ∧ k ∈ acc'.map Prod.fst ∧ e = .keyError))) := by
  intro items
  induction items with
  | nil => intro acc e; simp [Timeline.amendLocate]
  | cons x xs ih =>
    intro acc e
    obtain ⟨t, v⟩ := x
    have hpre : ∀ (P : List (Time × L) → Time → L → List (Time × L) → Prop),
        (∃ pre t' v' rest, (t, v) :: xs = pre ++ (t', v') :: rest ∧ P pre t' v' rest) ↔
          P [] t v xs ∨ ∃ pre t' v' rest, xs = pre ++ (t', v') :: rest ∧ P ((t, v) :: pre) t' v' rest := by
      intro P
      constructor
      · rintro ⟨pre, t', v', rest, heq, hP⟩
        cases pre with
        | nil =>
          simp only [List.nil_append, List.cons.injEq, Prod.mk.injEq] at heq
          obtain ⟨⟨rfl, rfl⟩, rfl⟩ := heq
          exact .inl hP
        | cons y pre =>
          simp only [List.cons_append, List.cons.injEq] at heq
          obtain ⟨rfl, heq⟩ := heq
          exact .inr ⟨pre, t', v', rest, heq, hP⟩
      · rintro (hP | ⟨pre, t', v', rest, heq, hP⟩)
        · exact ⟨[], t, v, xs, rfl, hP⟩
        · exact ⟨(t, v) :: pre, t', v', rest, by rw [heq]; rfl, hP⟩
    rw [hpre (fun pre t v rest => ∃ acc', tl.amendLocate true pre acc = .ok acc' ∧
        (((tl.wsPosition t = .error e)) ∨ (∃ k, tl.wsPosition t = .ok k ∧ k ∈ acc'.map Prod.fst ∧ e = .keyError)))]
    cases hp : tl.wsPosition t with
    | error e' =>
      have hrun : ∀ ys, tl.amendLocate true ((t, v) :: ys) acc = .error e' := by
        intro ys; unfold Timeline.amendLocate; rw [hp]; cases e' <;> rfl
      have hnil : tl.amendLocate true [] acc = .ok acc := rfl
      simp only [hrun, hnil, Except.error.injEq, reduceCtorEq, false_and, exists_false, or_false,
        exists_eq_left', Except.ok.injEq, and_false]
    | ok k =>
      by_cases hk : k ∈ acc.map Prod.fst
      · have hrun : ∀ ys, tl.amendLocate true ((t, v) :: ys) acc = .error .keyError := by
          intro ys; unfold Timeline.amendLocate; rw [hp]
          simp only; rw [if_pos ((any_fst_iff acc k).2 hk)]
        have hnil : tl.amendLocate true [] acc = .ok acc := rfl
        simp only [hrun, hnil, Except.error.injEq, reduceCtorEq, false_and, exists_false, or_false,
          exists_eq_left', Except.ok.injEq, false_or, and_false, hk, true_and]
        exact eq_comm
      · have hrun : ∀ ys, tl.amendLocate true ((t, v) :: ys) acc = tl.amendLocate true ys (acc ++ [(k, v)]) := by
          intro ys
          rw [Timeline.amendLocate.eq_2, hp]
          simp only; rw [if_neg (fun h => hk ((any_fst_iff acc k).1 h))]
        have hnil : tl.amendLocate true [] acc = .ok acc := rfl
        rw [hrun, ih]
        simp only [hrun, hnil, Except.ok.injEq, reduceCtorEq, false_or, exists_eq_left', hk, false_and,
          exists_false]

/-- **C13**, `_Timeline.amend` with `not_in_range='raise'`: the first amendment in the order of the items which is either
outside of the timeline or refers to the same workshift as an earlier one decides the error; without such an amendment the
timeline is amended. -/
theorem C13_raise_mode {tb : Timeboard L} (h : tb.Reachable) (items : List (Time × L)) :
    (∀ e, tb.timeline.amend items true = .error e ↔
      ∃ pre t v rest, items = pre ++ (t, v) :: rest ∧
        (∀ p ∈ pre, tb.Within p.1) ∧ ¬ tb.Conflict pre ∧
        ((¬ tb.Within t ∧ e = .outOfBounds) ∨ (tb.Within t ∧ tb.Conflict (pre ++ [(t, v)]) ∧ e = .keyError))) ∧
    ((∀ p ∈ items, tb.Within p.1) → ¬ tb.Conflict items → tb.timeline.amend items true = tb.timeline.amend items) := by
  have hv := h.valid
  have wf := hv.wf
  have hwithin : ∀ t, tb.Within t ↔ ∃ k, tb.timeline.wsPosition t = .ok k := by
    intro t
    exact ⟨fun ht => wf.exists_position ht.1 ht.2, fun ⟨k, hk⟩ => wf.position_in_frame hk⟩
  have hok : ∀ pre acc, tb.timeline.amendLocate true pre [] = .ok acc ↔
      ((∀ p ∈ pre, tb.Within p.1) ∧ ¬ tb.Conflict pre ∧ acc = tb.timeline.located pre) := by
    intro pre acc
    rcases wf.amendLocate_raise pre [] (by simp) with ⟨⟨h1, h2⟩, h3⟩ | ⟨⟨p, hp, h2⟩, h3⟩ | ⟨h1, h3⟩
    · rw [h3]
      simp only [List.nil_append] at h1 ⊢
      constructor
      · intro he; cases he
        exact ⟨fun p hp => (hwithin _).2 (h2 p hp), (located_nodup_iff hv _).1 h1, rfl⟩
      · rintro ⟨_, _, rfl⟩; rfl
    · rw [h3]
      simp only [reduceCtorEq, false_iff, not_and]
      intro hall
      obtain ⟨k, hk⟩ := (hwithin _).1 (hall p hp)
      rw [h2] at hk; cases hk
    · rw [h3]
      simp only [List.nil_append] at h1
      rw [located_nodup_iff hv] at h1
      simp only [reduceCtorEq, false_iff, not_and]
      intro _ hc
      exact absurd hc h1
  have hloc : ∀ pre t v k, tb.timeline.wsPosition t = .ok k → ¬ tb.Conflict pre →
      (k ∈ (tb.timeline.located pre).map Prod.fst ↔ tb.Conflict (pre ++ [(t, v)])) := by
    intro pre t v k hk hc
    have e : tb.timeline.located (pre ++ [(t, v)]) = tb.timeline.located pre ++ [(k, v)] := by
      unfold Timeline.located
      rw [List.filterMap_append]
      simp [hk]
    have h1 := (located_nodup_iff hv pre).2 hc
    have h2 := located_nodup_iff hv (pre ++ [(t, v)])
    rw [e, List.map_append, List.nodup_append] at h2
    simp only [List.map_cons, List.map_nil, List.mem_singleton, List.nodup_cons, List.not_mem_nil, not_false_eq_true, List.nodup_nil,
      and_true, true_and, h1, forall_eq] at h2
    constructor
    · intro hm
      exact Classical.byContradiction (fun hn => (h2.2 hn) k hm rfl)
    · intro hcf
      exact Classical.byContradiction (fun hn => (h2.1 (fun x hx he => hn (he ▸ hx))) hcf)
  constructor
  · intro e
    have : tb.timeline.amend items true = .error e ↔ tb.timeline.amendLocate true items [] = .error e := by
      unfold Timeline.amend
      cases tb.timeline.amendLocate true items [] <;> simp
    rw [this, amendLocate_raise_exact]
    constructor
    · rintro ⟨pre, t, v, rest, rfl, acc', hacc, hh⟩
      obtain ⟨g1, g2, rfl⟩ := (hok _ _).1 hacc
      refine ⟨pre, t, v, rest, rfl, g1, g2, ?_⟩
      rcases hh with hh | ⟨k, hk, hm, rfl⟩
      · refine .inl ⟨?_, ((wf.wsPosition_error_iff _ _).1 hh).1⟩
        intro hw
        obtain ⟨k, hk⟩ := (hwithin _).1 hw
        rw [hh] at hk; cases hk
      · exact .inr ⟨(hwithin _).2 ⟨k, hk⟩, (hloc _ _ _ _ hk g2).1 hm, rfl⟩
    · rintro ⟨pre, t, v, rest, rfl, g1, g2, hh⟩
      refine ⟨pre, t, v, rest, rfl, _, (hok _ _).2 ⟨g1, g2, rfl⟩, ?_⟩
      rcases hh with ⟨hw, rfl⟩ | ⟨hw, hc, rfl⟩
      · left
        rw [wf.wsPosition_error_iff]
        refine ⟨rfl, ?_⟩
        unfold Timeboard.Within Timeboard.startTime Timeboard.endTime at hw
        omega
      · obtain ⟨k, hk⟩ := (hwithin _).1 hw
        exact .inr ⟨k, hk, (hloc _ _ _ _ hk g2).2 hc, rfl⟩
  · intro h1 h2
    have h3 := (hok items _).2 ⟨h1, h2, rfl⟩
    have h4 := wf.amend_ok_iff.2 ⟨(located_nodup_iff hv _).2 h2, rfl⟩
    rw [h4]
    unfold Timeline.amend
    rw [h3]

/-- Two keys on 2 January; a key outside. -/
example : (Timeboard.new { weekArgs with amendments := [(date 2017 1 2, 0), (date 2017 1 2 + nsHour, 8)] } heap0).map (fun _ => ()) = .error .keyError ∧
    (week.timeline.amend [(date 2017 1 3, 5), (date 2018 1 3, 5), (date 2017 1 3, 6)] true).map (fun _ => ()) = .error .outOfBounds ∧
    (week.timeline.amend [(date 2017 1 3, 5), (date 2017 1 3, 6), (date 2018 1 3, 5)] true).map (fun _ => ()) = .error .keyError ∧
    (week.timeline.amend [(date 2017 1 3, 5), (date 2018 1 3, 6), (date 2018 1 3, 5)]).map (fun tl => tl.labels[2]?) = .ok (some 5) := by
  decide +kernel

/-- **C14.** The order of the items of the dictionary of amendments does not matter. -/
theorem C14_order_irrelevant {a a' : Args L} {items : List (Time × L)} (ha : a' = { a with amendments := items })
    (hp : a.amendments.Perm items) {heap : Heap L} : Timeboard.new a heap = Timeboard.new a' heap := by
  have key : ∀ tl : Timeline L, tl.WF → tl.amend a.amendments = tl.amend items := by
    intro tl wf
    have hl : (tl.located a.amendments).Perm (tl.located items) := by
      unfold Timeline.located; exact hp.filterMap _
    have hn : ((tl.located a.amendments).map Prod.fst).Nodup ↔ ((tl.located items).map Prod.fst).Nodup := (hl.map _).nodup_iff
    cases h1 : tl.amend a.amendments with
    | error e =>
      obtain ⟨rfl, h2⟩ := wf.amend_error_iff.1 h1
      exact (wf.amend_error_iff.2 ⟨rfl, fun h => h2 (hn.2 h)⟩).symm
    | ok tl1 =>
      obtain ⟨h2, h2'⟩ := wf.amend_ok_iff.1 h1
      have h3 := wf.amend_ok_iff.2 ⟨hn.1 h2, rfl⟩
      rw [h3]
      have a1 := wf.amend_labels h1
      have a2 := wf.amend_labels h3
      rw [h2'] at a1 ⊢
      simp only at a1 a2
      congr 2
      apply List.ext_getElem?
      intro i
      by_cases hex : ∃ t v, (t, v) ∈ items ∧ tl.wsPosition t = .ok (i : Int)
      · obtain ⟨t, v, hm, hk⟩ := hex
        have e1 := a1.1 t v i (hp.mem_iff.2 hm) hk
        have e2 := a2.1 t v i hm hk
        simp only [Int.toNat_natCast] at e1 e2
        rw [e1, e2]
      · have e1 := a1.2 i (by omega) (fun t v hm hk => hex ⟨t, v, hp.mem_iff.1 hm, hk⟩)
        have e2 := a2.2 i (by omega) (fun t v hm hk => hex ⟨t, v, hm, hk⟩)
        simp only [Int.toNat_natCast] at e1 e2
        rw [e1, e2]
  subst ha
  unfold Timeboard.new
  simp only
  cases hm : makeOrganizer a.layout with
  | error e => rfl
  | ok org =>
    simp only
    split
    · rfl
    · cases hf : Frame.new a.freq a.start a.stop with
      | error e => rfl
      | ok frame =>
        simp only
        cases ht : Timeline.new frame (some org) a.refEnd a.defaultLabel heap with
        | error e => rfl
        | ok r =>
          obtain ⟨tl0, heap'⟩ := r
          simp only
          rw [key tl0 (Timeline.new_wf (Frame.new_valid hf) ht).1]

example : weekArgs.amendments.Perm [(date 2018 1 1, 5), (date 2017 1 8 + 10 * nsHour, 7), (date 2017 1 2, 0)] := by decide +kernel

end TB
