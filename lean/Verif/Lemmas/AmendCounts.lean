import Verif.Props.Amend
import Verif.Lemmas.Intervals
import Verif.Props.ForeignSchedule
import Verif.Lemmas.Reference
import Verif.Spec.AmendEffect
/-! Sums over the workshifts of an interval before and after amendments. -/
namespace TB
variable {L : Type}

theorem rat_sum_perm {a b : List Rat} (h : a.Perm b) : a.sum = b.sum := by
  induction h with
  | nil => rfl
  | cons x _ ih => rw [List.sum_cons, List.sum_cons, ih]
  | swap x y l => simp only [List.sum_cons]; grind
  | trans _ _ h1 h2 => rw [h1, h2]

theorem rat_sum_filter {α : Type} (p : α → Bool) (f : α → Rat) : ∀ l : List α, ((l.filter p).map f).sum = (l.map (fun x => if p x then f x else 0)).sum
  | [] => rfl
  | x :: l => by
    rw [List.filter_cons, List.map_cons, List.sum_cons]
    by_cases h : p x = true
    · rw [if_pos h, if_pos h, List.map_cons, List.sum_cons, rat_sum_filter p f l]
    · rw [if_neg h, if_neg h, rat_sum_filter p f l]; grind

theorem rat_sum_sub {α : Type} (f g : α → Rat) : ∀ l : List α, (l.map f).sum = (l.map g).sum + (l.map (fun x => f x - g x)).sum
  | [] => by simp only [List.map_nil, List.sum_nil]; grind
  | x :: l => by
    simp only [List.map_cons, List.sum_cons]
    rw [rat_sum_sub f g l]; grind

theorem rat_length {α : Type} : ∀ l : List α, ((l.length : Int) : Rat) = (l.map (fun _ => (1 : Rat))).sum
  | [] => rfl
  | x :: l => by
    simp only [List.map_cons, List.sum_cons, List.length_cons]
    rw [← rat_length l]
    push_cast
    grind

theorem rat_int_sum {α : Type} (f : α → Int) : ∀ l : List α, (((l.map f).sum : Int) : Rat) = (l.map (fun x => (f x : Rat))).sum
  | [] => rfl
  | x :: l => by
    simp only [List.map_cons, List.sum_cons]
    rw [← rat_int_sum f l]
    push_cast
    rfl

/-- A sum over all of a list is the sum over the places where something is not zero. -/
theorem rat_sum_places {xs ps : List Int} (f : Int → Rat) (h1 : xs.Nodup) (h2 : ps.Nodup) (h3 : ∀ k ∈ ps, k ∈ xs) (h4 : ∀ k ∈ xs, k ∉ ps → f k = 0) :
    (xs.map f).sum = (ps.map f).sum := by
  have hp : (xs.filter (fun k => decide (k ∈ ps))).Perm ps := by
    rw [List.perm_ext_iff_of_nodup (h1.filter _) h2]
    intro k
    rw [List.mem_filter]
    simp only [decide_eq_true_eq]
    exact ⟨fun h => h.2, fun h => ⟨h3 k h, h⟩⟩
  rw [← rat_sum_perm (hp.map f), rat_sum_filter]
  congr 1
  apply List.map_congr_left
  intro k hk
  by_cases hm : k ∈ ps
  · simp [hm]
  · simp [hm, h4 k hk hm]

/-- The amount which the workshift at the position contributes. -/
def Timeboard.amount (tb : Timeboard L) (g : L → Int → Rat) (k : Int) : Rat :=
  match tb.timeline.label k with
  | .ok l => g l (tb.timeline.bnd (k + 1) - tb.timeline.bnd k)
  | .error _ => 0

theorem Timeboard.amount_positions (tb : Timeboard L) (sel : L → Bool) (d : Duty) (lo hi : Int) (g : L → Int → Rat) :
    ((tb.dutyPositions sel d lo hi).map (tb.amount g)).sum =
      ((intRange lo (hi + 1)).map (tb.amount (fun l n => if dutyMatches d sel l then g l n else 0))).sum := by
  unfold Timeboard.dutyPositions
  rw [rat_sum_filter]
  congr 1
  apply List.map_congr_left
  intro k _
  unfold Timeboard.amount
  cases tb.timeline.label k <;> simp

/-- A timeboard, and the one made with the same arguments and more amendments. -/
structure Timeboard.Amended (tb tb' : Timeboard L) (more : List (Time × L)) : Prop where
  frame : tb'.timeline.frame = tb.timeline.frame
  idx : tb'.timeline.wsIdx = tb.timeline.wsIdx
  band : tb'.timeline.frameband = tb.timeline.frameband
  refEnd : tb'.timeline.refEnd = tb.timeline.refEnd
  source : tb'.worktimeSource = tb.worktimeSource
  hit : ∀ t v k, (t, v) ∈ more → tb.At t k → tb'.timeline.label k = .ok v
  miss : ∀ k, 0 ≤ k → k < tb.timeline.len → (∀ t v, (t, v) ∈ more → ¬ tb.At t k) → tb'.timeline.label k = tb.timeline.label k
  apart : more.Pairwise (fun p q => ∀ k, tb.At p.1 k → ¬ tb.At q.1 k)

theorem Timeline.WF.label_of_get {tl : Timeline L} (wf : tl.WF) {k : Int} (h0 : 0 ≤ k) (h1 : k < tl.len) {l : L} : tl.label k = .ok l ↔ tl.labels[k.toNat]? = some l := by
  obtain ⟨hh, e⟩ := wf.label_eq h0 h1
  rw [e, List.getElem?_eq_getElem hh]
  simp

theorem Timeboard.amended_of {a : Args L} {heap heap1 heap2 : Heap L} {tb tb' : Timeboard L} {more : List (Time × L)}
    (h : Timeboard.new a heap = .ok (tb, heap1)) (h' : Timeboard.new { a with amendments := a.amendments ++ more } heap = .ok (tb', heap2)) :
    heap1 = heap2 ∧ tb'.defaultSchedule.selector = tb.defaultSchedule.selector ∧ tb.Amended tb' more := by
  have hv : tb.Valid := (Timeboard.Reachable.new h).valid
  have hv' : tb'.Valid := (Timeboard.Reachable.new h').valid
  have hdef : tb'.defaultSchedule.selector = tb.defaultSchedule.selector ∧ tb'.worktimeSource = tb.worktimeSource := by
    obtain ⟨org, frame, tl0, tl, h1, h2, h3, h4, h5, rfl⟩ := Timeboard.new_ok_iff.1 h
    obtain ⟨org, frame, tl0, tl, h1, h2, h3, h4, h5, rfl⟩ := Timeboard.new_ok_iff.1 h'
    exact ⟨rfl, rfl⟩
  obtain ⟨tb0, g1, wf0, g2⟩ := Timeboard.new_plain h
  obtain ⟨tb0', g1', wf0', g2'⟩ := Timeboard.new_plain h'
  have e : Timeboard.new a.plain heap = .ok (tb0', heap2) := g1'
  rw [g1] at e
  cases e
  have hv0 : tb0.Valid := (Timeboard.Reachable.new g1).valid
  obtain ⟨e1, e2, e3, e4, e5⟩ := Timeline.amend_frame g2
  obtain ⟨e1', e2', e3', e4', e5'⟩ := Timeline.amend_frame g2'
  obtain ⟨l1, l2⟩ := wf0.amend_labels g2
  obtain ⟨l1', l2'⟩ := wf0.amend_labels g2'
  have hnd := (wf0.amend_ok_iff.1 g2').1
  have hnc : ¬ tb0.Conflict (a.amendments ++ more) := (located_nodup_iff hv0 _).1 hnd
  have hat : ∀ t k, tb.At t k ↔ tb0.timeline.wsPosition t = .ok k := by
    intro t k
    rw [hv.at_iff, Timeline.position_congr e1 e2 e3]
  have hlen : tb.timeline.len = tb0.timeline.len := by unfold Timeline.len; rw [e2]
  have hlen' : tb'.timeline.len = tb0.timeline.len := by unfold Timeline.len; rw [e2']
  refine ⟨rfl, hdef.1, ⟨e1'.trans e1.symm, e2'.trans e2.symm, e3'.trans e3.symm, e4'.trans e4.symm, hdef.2, ?_, ?_, ?_⟩⟩
  · intro t v k hm hk
    have hb := hk.1
    have hb1 := hk.2.1
    exact (hv'.wf.label_of_get hb (by omega)).2 (l1' t v k (List.mem_append_right _ hm) ((hat t k).1 hk))
  · intro k h0 h1 hno
    obtain ⟨hh, el⟩ := hv.wf.label_eq h0 h1
    rw [el, hv'.wf.label_of_get h0 (by omega), ← List.getElem?_eq_getElem hh]
    by_cases hx : ∃ t v, (t, v) ∈ a.amendments ∧ tb0.timeline.wsPosition t = .ok k
    · obtain ⟨t, v, hm, hp⟩ := hx
      rw [l1 t v k hm hp, l1' t v k (List.mem_append_left _ hm) hp]
    · rw [l2 k h0 (fun t v hm hp => hx ⟨t, v, hm, hp⟩), l2' k h0]
      intro t v hm hp
      rcases List.mem_append.1 hm with hm | hm
      · exact hx ⟨t, v, hm, hp⟩
      · exact hno t v hm ((hat t k).2 hp)
  · rw [List.pairwise_iff_getElem]
    intro i j hi hj hij k hp hq
    apply hnc
    refine ⟨a.amendments.length + i, a.amendments.length + j, more[i], more[j], k, by omega, ?_, ?_, hv0.at_iff.2 ((hat _ _).1 hp), hv0.at_iff.2 ((hat _ _).1 hq)⟩
    · rw [List.getElem?_append_right (by omega)]; simp [hi]
    · rw [List.getElem?_append_right (by omega)]; simp [hj]

theorem Timeboard.Valid.getWorkshift_of_at {tb : Timeboard L} (hv : tb.Valid) {t : Time} {k : Int} (hk : tb.At t k) :
    ∃ w, tb.getWorkshift t none = .ok w ∧ w.duration tb = .ok (tb.timeline.bnd (k + 1) - tb.timeline.bnd k) ∧ tb.timeline.label k = .ok w.label ∧
      w.loc = k := by
  obtain ⟨w, hw, hwl, _, hlab, hs, he, hr, hd⟩ := Workshift.exists_of_range hv none hk.1 hk.2.1
  refine ⟨w, ?_, hd, hlab, hwl⟩
  unfold Timeboard.getWorkshift
  rw [hv.locate_at hk]
  exact hw

/-- A point in time between the beginning of a workshift and the end of a later one is in some workshift. -/
theorem Timeboard.Valid.at_between {tb : Timeboard L} (hv : tb.Valid) {lo hi : Int} (h0 : 0 ≤ lo) (hle : lo ≤ hi) (h1 : hi < tb.timeline.len) {t0 t1 t : Time}
    (hs : tb.timeline.wsStart lo = .ok t0) (he : tb.timeline.wsEnd hi = .ok t1) (h2 : t0 ≤ t) (h3 : t ≤ t1) : ∃ k, tb.At t k := by
  have w0 : tb.At t0 lo := by
    rw [hv.at_iff, hv.wf.wsPosition_ok_iff]
    rw [hv.wf.wsStart_eq h0 (by omega)] at hs
    injection hs with hs
    have u1 := Frame.unitStart_lt_iff (f := tb.timeline.frame) (i := tb.timeline.bnd lo) (j := tb.timeline.bnd (lo + 1))
    rw [hv.wf.bnd_lt_iff (by omega) (by omega) (by omega) (by omega)] at u1
    exact ⟨h0, by omega, by omega, by omega⟩
  have w1 : tb.At t1 hi := by
    rw [hv.at_iff, hv.wf.wsPosition_ok_iff]
    rw [hv.wf.wsEnd_eq (by omega) h1] at he
    injection he with he
    have u1 := Frame.unitStart_lt_iff (f := tb.timeline.frame) (i := tb.timeline.bnd hi) (j := tb.timeline.bnd (hi + 1))
    rw [hv.wf.bnd_lt_iff (by omega) (by omega) (by omega) (by omega)] at u1
    exact ⟨by omega, h1, by omega, by omega⟩
  have w0 := hv.at_within w0
  have w1 := hv.at_within w1
  exact hv.at_exists ⟨Int.le_trans w0.1 h2, Int.le_trans h3 w1.2⟩

namespace Timeboard.Amended
variable {tb tb' : Timeboard L} {more : List (Time × L)} (h : tb.Amended tb' more) (hv : tb.Valid) (hv' : tb'.Valid)
include h

theorem len_eq : tb'.timeline.len = tb.timeline.len := by unfold Timeline.len; rw [h.idx]

theorem bnd_eq (k : Int) : tb'.timeline.bnd k = tb.timeline.bnd k := by unfold Timeline.bnd; rw [h.idx, h.frame]

include hv hv'

theorem sameTimes : tb.SameTimes tb' := by
  have href : ∀ k, tb'.timeline.refTime k = tb.timeline.refTime k := by
    intro k; unfold Timeline.refTime; rw [h.refEnd, h.frame, h.bnd_eq, h.bnd_eq]
  refine ⟨h.len_eq.symm, ?_⟩
  intro k h0 h1
  obtain ⟨w, hw, hwl, _, hlab, hs, he, hr, hd⟩ := Workshift.exists_of_range hv none h0 h1
  obtain ⟨w', hw', hwl', _, hlab', hs', he', hr', hd'⟩ := Workshift.exists_of_range hv' none h0 (by rw [h.len_eq]; exact h1)
  exact ⟨w, w', hw, hw', by rw [hs, hs', h.frame, h.bnd_eq], by rw [he, he', h.frame, h.bnd_eq], by rw [hr, hr', href]⟩

/-- The sums over a range of positions. -/
theorem sums {lo hi : Int} (h0 : 0 ≤ lo) (hle : lo ≤ hi) (h1 : hi < tb.timeline.len) {t0 t1 : Time} (hs : tb.timeline.wsStart lo = .ok t0)
    (he : tb.timeline.wsEnd hi = .ok t1) (g : L → Int → Rat) :
    ((intRange lo (hi + 1)).map (tb'.amount g)).sum =
      ((intRange lo (hi + 1)).map (tb.amount g)).sum + ((amendmentsWithin t0 t1 more).map (tb.effect g)).sum := by
  rw [rat_sum_sub (tb'.amount g) (tb.amount g)]
  congr 1
  have hin : ∀ t k, tb.At t k → ((t0 ≤ t ∧ t ≤ t1) ↔ (lo ≤ k ∧ k ≤ hi)) := by
    intro t k hk
    rw [hv.at_iff, hv.wf.wsPosition_ok_iff] at hk
    obtain ⟨k0, k1, k2, k3⟩ := hk
    rw [hv.wf.wsStart_eq h0 (by omega)] at hs
    rw [hv.wf.wsEnd_eq (by omega) h1] at he
    injection hs with hs
    injection he with he
    have u1 := Frame.unitStart_lt_iff (f := tb.timeline.frame) (i := tb.timeline.bnd lo) (j := tb.timeline.bnd (k + 1))
    have u2 := Frame.unitStart_lt_iff (f := tb.timeline.frame) (i := tb.timeline.bnd k) (j := tb.timeline.bnd lo)
    have u3 := Frame.unitStart_lt_iff (f := tb.timeline.frame) (i := tb.timeline.bnd (k)) (j := tb.timeline.bnd (hi + 1))
    have u4 := Frame.unitStart_lt_iff (f := tb.timeline.frame) (i := tb.timeline.bnd (hi + 1)) (j := tb.timeline.bnd (k + 1))
    have u5 := Frame.unitStart_lt_iff (f := tb.timeline.frame) (i := tb.timeline.bnd (k + 1)) (j := tb.timeline.bnd lo)
    rw [hv.wf.bnd_lt_iff (by omega) (by omega) (by omega) (by omega)] at u1 u2 u3 u4 u5
    omega
  have hpos : ∀ p ∈ amendmentsWithin t0 t1 more, ∃ k, tb.At p.1 k := by
    intro p hp
    unfold amendmentsWithin at hp
    rw [List.mem_filter] at hp
    have hp2 := of_decide_eq_true hp.2
    exact hv.at_between h0 hle h1 hs he hp2.1 hp2.2
  have heff : ∀ p ∈ amendmentsWithin t0 t1 more, ∀ k, tb.At p.1 k → tb.effect g p = tb'.amount g k - tb.amount g k := by
    intro p hp k hk
    unfold amendmentsWithin at hp
    rw [List.mem_filter] at hp
    have hl := h.hit p.1 p.2 k hp.1 hk
    obtain ⟨w, b1, b2, b3, _⟩ := hv.getWorkshift_of_at hk
    unfold Timeboard.effect Timeboard.amount
    rw [b1, hl, h.bnd_eq, h.bnd_eq]
    simp only [b2, b3]
  have hps : ∃ ps : List Int, ps.Nodup ∧ (∀ k, k ∈ ps ↔ ∃ p ∈ amendmentsWithin t0 t1 more, tb.At p.1 k) ∧
      ((amendmentsWithin t0 t1 more).map (tb.effect g)).sum = (ps.map (fun k => tb'.amount g k - tb.amount g k)).sum := by
    have hap : (amendmentsWithin t0 t1 more).Pairwise (fun p q => ∀ k, tb.At p.1 k → ¬ tb.At q.1 k) := h.apart.filter _
    generalize amendmentsWithin t0 t1 more = xs at hpos heff hap
    induction xs with
    | nil => exact ⟨[], List.nodup_nil, by simp, rfl⟩
    | cons p xs ih =>
      rw [List.pairwise_cons] at hap
      obtain ⟨ps, i1, i2, i3⟩ := ih (fun q hq => hpos q (List.mem_cons_of_mem _ hq)) (fun q hq => heff q (List.mem_cons_of_mem _ hq)) hap.2
      obtain ⟨k, hk⟩ := hpos p List.mem_cons_self
      refine ⟨k :: ps, ?_, ?_, ?_⟩
      · rw [List.nodup_cons, i2]
        refine ⟨?_, i1⟩
        rintro ⟨q, hq, hqk⟩
        exact hap.1 q hq k hk hqk
      · intro j
        rw [List.mem_cons, i2]
        constructor
        · rintro (rfl | ⟨q, hq, hqk⟩)
          · exact ⟨p, List.mem_cons_self, hk⟩
          · exact ⟨q, List.mem_cons_of_mem _ hq, hqk⟩
        · rintro ⟨q, hq, hqk⟩
          rcases List.mem_cons.1 hq with rfl | hq
          · exact .inl (hv.at_unique hqk hk)
          · exact .inr ⟨q, hq, hqk⟩
      · rw [List.map_cons, List.sum_cons, List.map_cons, List.sum_cons, i3, heff p List.mem_cons_self k hk]
  obtain ⟨ps, i1, i2, i3⟩ := hps
  rw [i3]
  refine rat_sum_places _ ((pairwise_intRange _ _).imp (fun q => by omega)) i1 ?_ ?_
  · intro k hk
    obtain ⟨p, hp, hat⟩ := (i2 k).1 hk
    unfold amendmentsWithin at hp
    rw [List.mem_filter] at hp
    have := (hin p.1 k hat).1 (of_decide_eq_true hp.2)
    rw [mem_intRange]; omega
  · intro k hk hn
    rw [mem_intRange] at hk
    unfold Timeboard.amount
    rw [h.miss k (by omega) (by omega), h.bnd_eq, h.bnd_eq]
    · grind
    · intro t v hm hat
      apply hn
      refine (i2 k).2 ⟨(t, v), ?_, hat⟩
      unfold amendmentsWithin
      rw [List.mem_filter]
      exact ⟨hm, decide_eq_true ((hin t k hat).2 (by omega))⟩

end Timeboard.Amended
end TB
