import Verif.Props.Hours
import Verif.Props.Additive
import Verif.Props.GetInterval
import Verif.Lemmas.When
import Verif.Lemmas.Parameters
/-! Positions of the workshifts of the ready-made calendars and what follows for the sums over them. -/
namespace TB

theorem Preconfigured.ref_start {c : Calendar} (hc : Preconfigured c) {cs ce : Option Time} {dna oc : Bool}
    {custom : Option (List (Time × Int))} {heap : Heap Int} {tb : Timeboard Int} (h : c.new cs ce dna oc custom heap = .ok tb) :
    tb.timeline.refEnd = false := by
  obtain ⟨d, heap', _, _, _, _, hn⟩ := hc.board h
  obtain ⟨org, f, tl0, tl, _, _, _, ht, ha, rfl⟩ := Timeboard.new_ok_iff.1 hn
  have h1 := Timeline.new_withRef f (some org) false false (0 : Int) heap
  have h2 : Timeline.new f (some org) false (0 : Int) heap = .ok (tl0, heap') := ht
  rw [h2] at h1
  simp only [Except.ok.injEq, Prod.mk.injEq, and_true] at h1
  have h3 := (Timeline.amend_frame ha).2.2.2.1
  show tl.refEnd = false
  rw [h3, h1]

/-- The workshift at position `k` is the `k`-th day. -/
theorem Preconfigured.grid {c : Calendar} (hc : Preconfigured c) {cs ce : Option Time} {dna oc : Bool}
    {custom : Option (List (Time × Int))} {heap : Heap Int} {tb : Timeboard Int} (h : c.new cs ce dna oc custom heap = .ok tb)
    (k : Nat) (hk : (k : Int) ≤ tb.timeline.len) :
    tb.timeline.frame.unitStart (tb.timeline.bnd k) = (dayOf tb.startTime + k) * nsDay := by
  obtain ⟨hr, _, _⟩ := hc.facts h
  have hv := hr.valid
  obtain ⟨c1, c2, c3⟩ := C52_covers hc h
  induction k with
  | zero =>
    have : tb.timeline.frame.unitStart (tb.timeline.bnd 0) = tb.startTime := by
      rw [hv.wf.bnd_zero]; rfl
    rw [Int.natCast_zero, this, Int.add_zero, c1, dayOf_mul]
  | succ k ih =>
    have ih := ih (by omega)
    obtain ⟨w, _, a, _, b, n1, n2, n3, n4, _, n5, n6, n7, _, g, _⟩ := (C42_durations_and_times hr).1 k (by omega) (by omega)
    have hin : tb.startTime ≤ a ∧ a ≤ tb.endTime := by
      apply Classical.byContradiction
      intro hn
      rw [(C02_get_workshift hr a none).2 hn] at g; cases g
    obtain ⟨w', g', s', e', _⟩ := c3 a hin.1 hin.2
    rw [g] at g'; cases g'
    obtain ⟨w1, hw1, _, _, _, hs, he, _⟩ := Workshift.exists_of_range hv none (k := (k : Int)) (by omega) (by omega)
    rw [n1] at hw1; cases hw1
    rw [n4] at hs s'
    injection hs with hs
    rw [e'] at he
    injection he with he
    rw [hs, ih, dayOf_mul] at he
    rw [Int.natCast_add, Int.natCast_one]
    rw [show dayOf tb.startTime + ((k : Int) + 1) = dayOf tb.startTime + k + 1 by omega]
    omega

theorem Preconfigured.grid' {c : Calendar} (hc : Preconfigured c) {cs ce : Option Time} {dna oc : Bool}
    {custom : Option (List (Time × Int))} {heap : Heap Int} {tb : Timeboard Int} (h : c.new cs ce dna oc custom heap = .ok tb)
    {k : Int} (h0 : 0 ≤ k) (hk : k ≤ tb.timeline.len) :
    tb.timeline.frame.unitStart (tb.timeline.bnd k) = (dayOf tb.startTime + k) * nsDay := by
  have := hc.grid h k.toNat (by omega)
  rwa [Int.toNat_of_nonneg h0] at this

theorem Preconfigured.at_day {c : Calendar} (hc : Preconfigured c) {cs ce : Option Time} {dna oc : Bool}
    {custom : Option (List (Time × Int))} {heap : Heap Int} {tb : Timeboard Int} (h : c.new cs ce dna oc custom heap = .ok tb)
    {t : Time} {k : Int} (ht : tb.At t k) : dayOf t = dayOf tb.startTime + k := by
  obtain ⟨hr, _, _⟩ := hc.facts h
  have hv := hr.valid
  obtain ⟨h0, h1, h2, h3⟩ := (hv.wf.wsPosition_ok_iff t k).1 (hv.at_iff.1 ht)
  rw [hc.grid' h h0 (by omega)] at h2
  rw [hc.grid' h (k := k + 1) (by omega) (by omega)] at h3
  unfold dayOf nsDay at *
  omega

/-- The label of the day at position `k`. -/
theorem Preconfigured.label_at {c : Calendar} (hc : Preconfigured c) {cs ce : Option Time} {dna oc : Bool}
    {custom : Option (List (Time × Int))} {heap : Heap Int} {tb : Timeboard Int} (h : c.new cs ce dna oc custom heap = .ok tb)
    {k : Int} (h0 : 0 ≤ k) (h1 : k < tb.timeline.len) :
    labelAt (.ok tb) ((dayOf tb.startTime + k) * nsDay) = tb.timeline.label k := by
  obtain ⟨hr, _, _⟩ := hc.facts h
  have hv := hr.valid
  obtain ⟨w, _, a, _, b, n1, n2, n3, n4, _, n5, n6, n7, _, g, _⟩ := (C42_durations_and_times hr).1 k (by omega) (by omega)
  obtain ⟨w1, hw1, _, _, hl, hs, he, _⟩ := Workshift.exists_of_range hv none (k := (k : Int)) (by omega) (by omega)
  rw [n1] at hw1; cases hw1
  rw [n4, hc.grid' h h0 (by omega)] at hs
  injection hs with hs
  rw [← hs, labelAt_ok g, hl]

theorem Preconfigured.sums {c : Calendar} (hc : Preconfigured c) {cs ce : Option Time} {dna oc : Bool}
    {custom : Option (List (Time × Int))} {heap : Heap Int} {tb : Timeboard Int} (h : c.new cs ce dna oc custom heap = .ok tb)
    (s : Schedule Int) (hs : ∀ l, s.selector l = (l != 0)) (P Q : Int → Bool)
    (hP : ∀ k l, tb.timeline.label k = .ok l → P k = dutyMatches .on s.selector l)
    (hQ : ∀ k l, tb.timeline.label k = .ok l → Q k = dutyMatches .off s.selector l) (ks : List Int) (hk : ∀ k ∈ ks, 0 ≤ k ∧ k < tb.timeline.len) :
    ∃ (ls : List Int) (xs : List Rat),
      (ks.map (fun k => dayOf tb.startTime + k)).mapM (fun D => labelAt (.ok tb) (D * nsDay)) = .ok ls ∧
      (ks.filter P).length =
        (ls.filter (fun l => l != 0)).length ∧
      (ks.filter Q).length =
        (ls.filter (fun l => l == 0)).length ∧
      ks.mapM (fun k => (Workshift.new tb k (some s)).bind (fun w => w.worktime tb hours .on (some s))) = .ok xs ∧
      xs.sum = ((ls.sum : Int) : Rat) ∧ ls.length = ks.length := by
  obtain ⟨hr, hsrc, _⟩ := hc.facts h
  have hv := hr.valid
  induction ks with
  | nil => exact ⟨[], [], rfl, rfl, rfl, rfl, by simp, rfl⟩
  | cons k ks ih =>
    obtain ⟨ls, xs, i1, i2, i3, i4, i5, i6⟩ := ih (fun x hx => hk x (by simp [hx]))
    obtain ⟨k0, k1⟩ := hk k (by simp)
    obtain ⟨w, hw, hloc, _, hl, _⟩ := Workshift.exists_of_range hv (some s) k0 k1
    have hlab := hc.label_at h k0 k1
    rw [hl] at hlab
    have hwt : w.worktime tb hours .on (some s) = .ok ((w.label : Int) : Rat) := by
      rw [Workshift.worktime_eq (by rw [hloc]; exact hl) hours s (.inl rfl), hsrc]
      simp only [dutyMatches, hs, hours, if_true]
      by_cases hz : w.label = 0
      · simp [hz]
      · simp [hz]
    refine ⟨w.label :: ls, (w.label : Rat) :: xs, ?_, ?_, ?_, ?_, ?_, by simp [i6]⟩
    · rw [List.map_cons, List.mapM_cons, hlab, i1]; rfl
    · simp only [List.filter_cons, hP k _ hl, dutyMatches, hs]
      split <;> simp [i2]
    · simp only [List.filter_cons, hQ k _ hl, dutyMatches, hs]
      by_cases hz : w.label = 0 <;> simp [hz, i3]
    · rw [List.mapM_cons, hw, i4]
      simp only [Except.bind, hwt, bind, pure, Except.pure]
    · rw [List.sum_cons, List.sum_cons, i5, Rat.intCast_add]

end TB
