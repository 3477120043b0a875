import Verif.Spec.Keeping
import Verif.Props.Inwards
import Verif.Props.Parameters
import Verif.Props.Periods
/-! Property C130: a timeboard made of calendar periods is measured exactly by these periods. -/
namespace TB
open TB.Ex
variable {L : Type}

theorem Tiles.starts_apart {a b : Int} {ss : List Span} (h : Tiles a b ss) {x y : Span} (hx : x ∈ ss) (hy : y ∈ ss) : ¬ (x.first < y.first ∧ y.first ≤ x.last) := by
  rintro ⟨h1, h2⟩
  obtain ⟨i, hi⟩ := List.getElem?_of_mem hx
  obtain ⟨j, hj⟩ := List.getElem?_of_mem hy
  have hy' := h.mem hy
  have := h.disjoint hi hj (i := y.first) (by omega) h2 (by omega) (by omega)
  subst this
  rw [hi] at hj
  cases hj
  omega

/-- No period begins within a base unit. -/
theorem Frame.unit_unsplit {f : Frame} {q : Freq} (hc : checkGroupbyFreq f.freq q = true) (hq : q.mult = 1) (i o : Int) :
    ¬ (f.unitStart i < q.base.startOf o ∧ q.base.startOf o ≤ f.unitEnd i) := by
  obtain ⟨h1, h2⟩ := checkGroupby_unit hc hq
  obtain ⟨o', ho'⟩ := h2 o
  unfold Frame.unitStart Frame.unitEnd
  rw [ho', h1]
  rintro ⟨a, b⟩
  have a' := (Base.startOf_lt_iff _ _ _).1 a
  have b' := (f.freq.base.startOf_lt_iff o' (f.ord i + ((1 : Nat) : Int))).1 (by omega)
  omega

/-- No period begins within a span of the periods, except at its start. -/
theorem Frame.part_unsplit {f : Frame} {q : Freq} (hc : checkGroupbyFreq f.freq q = true) (hq : q.mult = 1) {s : Span} (hs : s.Within f.n)
    {ss : List Span} (hcut : f.cut s (.marker ⟨q, []⟩) = .ok ss) {x : Span} (hx : x ∈ ss) (o : Int) :
    ¬ (f.unitStart x.first < q.base.startOf o ∧ q.base.startOf o ≤ f.unitEnd x.last) := by
  rintro ⟨a, b⟩
  obtain ⟨ss', e1, ht, hk⟩ := C05_calendar_spans f s q hc hs.1 hs.2.1 hs.2.2
  have e2 : f.cutSpan (.marker ⟨q, []⟩) s = .ok ss := by rw [Frame.cutSpan_eq _ hs.1 hs.2.1 hs.2.2]; exact hcut
  have e3 : f.partitionWithMarker s ⟨q, []⟩ = .ok ss := e2
  rw [e1] at e3
  cases e3
  obtain ⟨h1, h2⟩ := checkGroupby_unit hc hq
  obtain ⟨o', ho'⟩ := h2 o
  have hu : q.base.startOf o = f.unitStart (o' - f.o0) := by
    rw [ho']
    unfold Frame.unitStart Frame.ord
    rw [h1]
    congr 1
    have : ((1 : Nat) : Int) = 1 := rfl
    omega
  have hm := ht.mem hx
  rw [hu] at a b
  rw [Frame.unitEnd_eq] at b
  have a' := Frame.unitStart_lt_iff.1 a
  have b' := Frame.unitStart_lt_iff.1 (show f.unitStart (o' - f.o0) < f.unitStart (x.last + 1) by omega)
  obtain ⟨y, hy, he⟩ := (hk (o' - f.o0) (by omega) (by omega)).2 ⟨⟨q, o⟩, rfl, by rw [hq]; exact ⟨_, (Int.one_mul _).symm⟩, by
    show f.unitStart _ ≤ q.base.startOf o
    rw [hu]; exact Int.le_refl _, by
    show q.base.startOf o ≤ _
    rw [hu]; exact Frame.unitStart_le_unitEnd' (Int.le_refl _)⟩
  exact ht.starts_apart hx hy ⟨by omega, by omega⟩

theorem Frame.Leads.unsplit {f : Frame} {q : Freq} (hc : checkGroupbyFreq f.freq q = true) (hq : q.mult = 1) {dl : L} {rp : Nat → List L} {l : Layout L}
    {s : Span} {t : Time} {a b : Int} {ls : List L} (h : f.Leads dl rp l s t a b ls) (hs : s.Within f.n) (hl : l.Keeps q) (o : Int) :
    ¬ (f.unitStart a < q.base.startOf o ∧ q.base.startOf o ≤ f.unitEnd b) := by
  induction h with
  | label => cases hl
  | unit _ _ => exact Frame.unit_unsplit hc hq _ o
  | unlabelled _ => exact Frame.unit_unsplit hc hq _ o
  | remembering _ _ => exact Frame.unit_unsplit hc hq _ o
  | rememberingNone _ _ => exact Frame.unit_unsplit hc hq _ o
  | part hcut hx h1 h2 he hp ih =>
    have hm := List.mem_of_getElem? hx
    have hin := (Frame.cut_within hs hcut).2 _ hm
    cases hl with
    | periods =>
      have k1 := hp.within hin h1 h2
      have k2 := Frame.part_unsplit hc hq hs hcut hm o
      have k3 := Frame.unitStart_monotone (f := f) k1.1
      have k4 := Frame.unitStart_monotone (f := f) (Int.add_le_add_right k1.2 1)
      rw [Frame.unitEnd_eq] at k2 ⊢
      omega
    | inside hk => exact ih hin (hk _ (mem_of_cyclic he))
  | bare _ => exact Frame.unit_unsplit hc hq _ o
  | shift hcut hx _ _ _ =>
    cases hl
    exact Frame.part_unsplit hc hq hs hcut hx o
  | shiftNone _ _ => exact Frame.unit_unsplit hc hq _ o

/-- **C130.** On a timeboard whose layout keeps within calendar periods no workshift extends over the beginning of such a period, or of a longer
one made of them. -/
theorem C130_unsplit {a : Args L} {heap heap' : Heap L} {m : Memory L} (hm : heap.Shows m) {q : Freq} (hl : a.layout.Keeps q)
    (hc : checkGroupbyFreq a.freq q = true) (hq : q.mult = 1) {tb : Timeboard L} (h : Timeboard.new a heap = .ok (tb, heap')) :
    tb.Unsplit q ∧ ∀ g : Freq, g.base.UnitsOf q.base → tb.Unsplit g := by
  have key : tb.Unsplit q := by
    intro k w x y h0 h1 hw hx hy o
    have hv := (Timeboard.Reachable.new h).valid
    obtain ⟨f, hf, kk⟩ := C129_inwards hm h
    have hn : 0 < f.n := Frame.new_valid hf
    obtain ⟨w0, hw0, hloc, _, _, hx0, hy0, _⟩ := Workshift.exists_of_range hv none h0 h1
    cases Workshift.ext_new hw hw0
    rw [hx0] at hx
    rw [hy0] at hy
    simp only [Except.ok.injEq] at hx hy
    have hlt : tb.timeline.frame.unitStart (tb.timeline.bnd k) < tb.timeline.frame.unitStart (tb.timeline.bnd (k + 1)) :=
      Frame.unitStart_lt_iff.2 (hv.wf.bnd_lt_bnd h0 (by omega) (by omega))
    have hin : tb.startTime ≤ x ∧ x ≤ tb.endTime := by
      have b1 := Frame.unitStart_monotone (f := tb.timeline.frame) (hv.wf.bnd_le_bnd (Int.le_refl _) h0 (Int.le_of_lt h1))
      have b2 := Frame.unitStart_monotone (f := tb.timeline.frame) (hv.wf.bnd_le_bnd (show 0 ≤ k + 1 by omega) (show k + 1 ≤ tb.timeline.len by omega) (Int.le_refl _))
      rw [hv.wf.bnd_zero] at b1
      rw [hv.wf.unitStart_bnd_len] at b2
      have b3 : tb.startTime = tb.timeline.frame.unitStart 0 := rfl
      have b4 : tb.endTime = tb.timeline.frame.endTime := rfl
      omega
    obtain ⟨w1, x1, y1, g1, g2, g3, g4, g5, _, _, g6⟩ := (C02_get_workshift (.new h) x none).1 hin
    have hk := g6 k w _ _ h0 h1 hw hx0 hy0 (by omega) (by omega)
    obtain ⟨p, r, ls, l, w2, c1, _, _, _, c2, c3, c4, _⟩ := kk x none hin.1 hin.2
    rw [g1] at c2
    cases c2
    unfold Workshift.startTime at hx0 c3
    unfold Workshift.endTime at hy0 c4
    rw [← hk, ← hloc, hx0] at c3
    rw [← hk, ← hloc, hy0] at c4
    simp only [Except.ok.injEq] at c3 c4
    have hff : f.freq = a.freq := by rw [(Frame.new_ok_iff.1 hf).2]
    have := c1.unsplit (hff ▸ hc) hq ⟨Int.le_refl _, by simp only; omega, by simp only; omega⟩ hl o
    omega
  exact ⟨key, fun g hg k w x y h0 h1 hw hx hy o => by
    obtain ⟨o', ho'⟩ := hg o
    rw [ho']
    exact key k w x y h0 h1 hw hx hy o'⟩

/-- **C130**, `workshift_ref` makes no difference on such a timeboard for questions about these periods, or longer ones made of them. -/
theorem C130_reference {a : Args L} {b : Bool} {heap k k' : Heap L} {m : Memory L} (hm : heap.Shows m) {q : Freq} (hl : a.layout.Keeps q)
    (hc : checkGroupbyFreq a.freq q = true) (hq : q.mult = 1) {tb tb' : Timeboard L} (h : Timeboard.new a heap = .ok (tb, k))
    (h' : Timeboard.new { a with refEnd := b } heap = .ok (tb', k')) {g : Freq} (hg : g.base.UnitsOf q.base) :
    (∀ (p : Period) clip closed s, p.freq.base = g.base →
      tb.getInterval (some (.period p)) none none clip closed s = tb'.getInterval (some (.period p)) none none clip closed s) ∧
    (∀ t (g' : Freq) clip closed s, g'.base = g.base →
      tb.getInterval (some (.point t)) none (some g') clip closed s = tb'.getInterval (some (.point t)) none (some g') clip closed s) ∧
    (∀ v d s, tb.HasInterval v → tb.OwnsOpt s → v.countPeriods tb g d s = v.countPeriods tb' g d s) :=
  C83_workshift_ref_unsplit h h' ((C130_unsplit hm hl hc hq h).2 g hg)

/-- **C130**, the interval of such a period within the timeboard starts and ends with the period, and consists of all the workshifts between. -/
theorem C130_exact {a : Args L} {heap heap' : Heap L} {m : Memory L} (hm : heap.Shows m) {q : Freq} (hl : a.layout.Keeps q)
    (hc : checkGroupbyFreq a.freq q = true) (hq : q.mult = 1) {tb : Timeboard L} (h : Timeboard.new a heap = .ok (tb, heap'))
    {sch : Option (Schedule L)} (hs : tb.OwnsOpt sch) (clip : Bool) {ref : IvlRef} {freq : Option Freq} {p : Period} (hp : PeriodRef ref freq p)
    (hb : p.freq.base.UnitsOf q.base) (h1 : tb.Within p.startTime) (h2 : tb.Within p.endTime) :
    ∃ v, tb.getInterval (some ref) none freq clip "11" sch = .ok v ∧ v.schedule = tb.effective sch ∧
      v.startTime tb = .ok (some p.startTime) ∧ v.endTime tb = .ok (some p.endTime) ∧
      ∀ k, v.Contains tb k ↔ (0 ≤ k ∧ k < tb.timeline.len ∧ ∃ w x y, Workshift.new tb k = .ok w ∧ w.startTime tb = .ok x ∧ w.endTime tb = .ok y ∧
        p.startTime ≤ x ∧ y ≤ p.endTime) := by
  have hr := Timeboard.Reachable.new h
  have hv := hr.valid
  have wf := hv.wf
  have hu : tb.Unsplit p.freq := (C130_unsplit hm hl hc hq h).2 p.freq hb
  have e1 : p.startTime = p.freq.base.startOf p.ord := rfl
  have e2 : p.endTime = p.freq.base.startOf (p.ord + p.freq.mult) - 1 := rfl
  have href : ∀ k, tb.RefIn p k ↔ (0 ≤ k ∧ k < tb.timeline.len ∧ ∃ w x y, Workshift.new tb k = .ok w ∧ w.startTime tb = .ok x ∧ w.endTime tb = .ok y ∧
        p.startTime ≤ x ∧ y ≤ p.endTime) := by
    intro k
    rw [hv.refIn_iff]
    constructor
    · rintro ⟨h0, h3, h4, h5⟩
      obtain ⟨w, hw, _, _, _, hx, hy, _⟩ := Workshift.exists_of_range hv none h0 h3
      have k1 := Timeboard.Unsplit.between hv hu h0 h3 p.ord
      have k2 := Timeboard.Unsplit.between hv hu h0 h3 (p.ord + p.freq.mult)
      have k3 := wf.refTime_within h0 h3
      exact ⟨h0, h3, w, _, _, hw, hx, hy, by omega, by omega⟩
    · rintro ⟨h0, h3, w, x, y, hw, hx, hy, h4, h5⟩
      obtain ⟨w', hw', _, _, _, hx', hy', _⟩ := Workshift.exists_of_range hv none h0 h3
      cases Workshift.ext_new hw hw'
      rw [hx'] at hx
      rw [hy'] at hy
      simp only [Except.ok.injEq] at hx hy
      have k3 := wf.refTime_within h0 h3
      exact ⟨h0, h3, by omega, by omega⟩
  have at_of : ∀ t, tb.Within t → ∃ k, 0 ≤ k ∧ k < tb.timeline.len ∧ tb.timeline.frame.unitStart (tb.timeline.bnd k) ≤ t ∧
      t < tb.timeline.frame.unitStart (tb.timeline.bnd (k + 1)) := by
    intro t ht
    obtain ⟨w, x, y, _, c2, c3, c4, c5, c6, c7, _⟩ := (C02_get_workshift hr t none).1 ht
    obtain ⟨w', hw', hl', _, _, hx', hy', _⟩ := Workshift.exists_of_range hv none c6 c7
    unfold Workshift.startTime at c2 hx'
    unfold Workshift.endTime at c3 hy'
    rw [hl'] at hx' hy'
    rw [hx'] at c2
    rw [hy'] at c3
    simp only [Except.ok.injEq] at c2 c3
    exact ⟨w.loc, c6, c7, by omega, by omega⟩
  have hmul := p.freq.mult_pos
  have hlt : p.startTime ≤ p.endTime := by
    have := (p.freq.base.startOf_lt_iff p.ord (p.ord + p.freq.mult)).2 (by omega)
    omega
  obtain ⟨i, i0, i1, i2, i3⟩ := at_of _ h1
  obtain ⟨j, j0, j1, j2, j3⟩ := at_of _ h2
  have ki := Timeboard.Unsplit.between hv hu i0 i1 p.ord
  have kj := Timeboard.Unsplit.between hv hu j0 j1 (p.ord + p.freq.mult)
  have ri := wf.refTime_within i0 i1
  have rj := wf.refTime_within j0 j1
  have ki' := Timeboard.Unsplit.between hv hu i0 i1 (p.ord + p.freq.mult)
  have kj' := Timeboard.Unsplit.between hv hu j0 j1 p.ord
  have hi : tb.RefIn p i := hv.refIn_iff.2 ⟨i0, i1, by omega, by omega⟩
  have hj : tb.RefIn p j := hv.refIn_iff.2 ⟨j0, j1, by omega, by omega⟩
  obtain ⟨v, e, hI, hnv, hsch, hcont⟩ := (C34_by_period hr hs clip hp h1 h2).1 ⟨i, hi⟩
  have hf := hI.fine hv
  have hpr : v.Proper tb := by
    rcases hf.shape with hp | hh
    · exact hp
    · rw [hh.void] at hnv; cases hnv
  have a1 := (hcont v.lo).1 ((hf.contains_iff hv _).2 ⟨Int.le_refl _, hpr.lo_le_hi⟩)
  have a2 := (hcont v.hi).1 ((hf.contains_iff hv _).2 ⟨hpr.lo_le_hi, Int.le_refl _⟩)
  have a3 := (hf.contains_iff hv _).1 ((hcont i).2 hi)
  have a4 := (hf.contains_iff hv _).1 ((hcont j).2 hj)
  obtain ⟨l0, l1, l2, l3⟩ := hv.refIn_iff.1 a1
  obtain ⟨u0, u1, u2, u3⟩ := hv.refIn_iff.1 a2
  have kl := Timeboard.Unsplit.between hv hu l0 l1 p.ord
  have ku := Timeboard.Unsplit.between hv hu u0 u1 (p.ord + p.freq.mult)
  have rl := wf.refTime_within l0 l1
  have ru := wf.refTime_within u0 u1
  have m1 := Frame.unitStart_monotone (f := tb.timeline.frame) (wf.bnd_le_bnd l0 a3.1 (Int.le_of_lt i1))
  have m2 := Frame.unitStart_monotone (f := tb.timeline.frame) (wf.bnd_le_bnd (show 0 ≤ j + 1 by omega) (show j + 1 ≤ v.hi + 1 by omega) (by omega))
  have s1 : v.startTime tb = .ok (some (tb.timeline.frame.unitStart (tb.timeline.bnd v.lo))) := by
    unfold Interval.startTime
    obtain ⟨w, _, hl, _, _, hst, _, _⟩ := Workshift.exists_of_range hv none l0 l1
    unfold Workshift.startTime at hst
    rw [hl] at hst
    simp only [hnv, Bool.false_eq_true, if_false, hst]
    rfl
  have s2 : v.endTime tb = .ok (some (tb.timeline.frame.unitStart (tb.timeline.bnd (v.hi + 1)) - 1)) := by
    unfold Interval.endTime
    obtain ⟨w, _, hl, _, _, _, hen, _⟩ := Workshift.exists_of_range hv none u0 u1
    unfold Workshift.endTime at hen
    rw [hl] at hen
    simp only [hnv, Bool.false_eq_true, if_false, hen]
    rfl
  refine ⟨v, e, hsch, ?_, ?_, fun k => (hcont k).trans (href k)⟩
  · rw [s1]; congr 2; omega
  · rw [s2]; congr 2; omega

theorem Timeboard.howMany_pos {tb : Timeboard L} {P : Int → Prop} : tb.howMany P ≠ 0 ↔ ∃ k, 0 ≤ k ∧ k < tb.timeline.len ∧ P k := by
  classical
  unfold Timeboard.howMany
  rw [← Nat.pos_iff_ne_zero, List.length_pos_iff_exists_mem]
  constructor
  · rintro ⟨k, hk⟩
    rw [List.mem_filter, mem_intRange, decide_eq_true_eq] at hk
    exact ⟨k, hk.1.1, hk.1.2, hk.2⟩
  · rintro ⟨k, h0, h1, h2⟩
    exact ⟨k, List.mem_filter.2 ⟨(mem_intRange _ _ _).2 ⟨h0, h1⟩, decide_eq_true h2⟩⟩

theorem Timeboard.Unsplit.has_ref {tb : Timeboard L} (hv : tb.Valid) {f : Freq} (hu : tb.Unsplit f) {p : Period} (hp : p.freq.base = f.base)
    (h1 : tb.Within p.startTime) : ∃ k, tb.RefIn p k := by
  obtain ⟨k, hk⟩ := hv.wf.exists_position h1.1 h1.2
  obtain ⟨k0, k1, k2, k3⟩ := (hv.wf.wsPosition_ok_iff _ _).1 hk
  have e1 : p.startTime = f.base.startOf p.ord := by rw [← hp]; rfl
  have e2 : p.endTime = f.base.startOf (p.ord + p.freq.mult) - 1 := by rw [← hp]; rfl
  have hmul := p.freq.mult_pos
  have d := (f.base.startOf_lt_iff p.ord (p.ord + p.freq.mult)).2 (by omega)
  have b1 := Timeboard.Unsplit.between hv hu k0 k1 p.ord
  have b2 := Timeboard.Unsplit.between hv hu k0 k1 (p.ord + p.freq.mult)
  have r := hv.wf.refTime_within k0 k1
  exact ⟨k, hv.refIn_iff.2 ⟨k0, k1, by omega, by omega⟩⟩

/-- **C130**, `count_periods` on the interval of several such periods: each one with workshifts of the duty counts as 1. -/
theorem C130_counted {a : Args L} {heap heap' : Heap L} {m : Memory L} (hm : heap.Shows m) {q : Freq} (hl : a.layout.Keeps q)
    (hc : checkGroupbyFreq a.freq q = true) (hq : q.mult = 1) {tb : Timeboard L} (h : Timeboard.new a heap = .ok (tb, heap'))
    {s0 sch : Option (Schedule L)} (hs0 : tb.OwnsOpt s0) (hs : tb.OwnsOpt sch) {clip : Bool} {ref : IvlRef} {freq : Option Freq} {p : Period}
    (hp : PeriodRef ref freq p) {g : Freq} (hg : g ∈ countable) (hgp : p.freq.base = g.base)
    (hb : g.base.UnitsOf q.base) (h1 : tb.Within p.startTime) (h2 : tb.Within p.endTime) {v : Interval L}
    (hv : tb.getInterval (some ref) none freq clip "11" s0 = .ok v) {duty : Duty} (hd : duty = .on ∨ duty = .off ∨ duty = .any)
    {os : List Int} (hos : os.Nodup) (ho : ∀ o, o ∈ os ↔ (p.ord ≤ o ∧ o < p.ord + p.freq.mult ∧
      ∃ k, tb.DutyAt (sch.getD v.schedule) duty k ∧ tb.RefIn ⟨g, o⟩ k)) :
    v.countPeriods tb g duty sch = .ok (os.length : Rat) := by
  have hr := Timeboard.Reachable.new h
  have hval := hr.valid
  have hu : tb.Unsplit g := (C130_unsplit hm hl hc hq h).2 g hb
  have hgm : g.mult = 1 := supportedPeriod_mult ((supportedPeriod_iff g).2 hg)
  obtain ⟨k0, hk0⟩ := Timeboard.Unsplit.has_ref hval hu hgp h1
  obtain ⟨v', e, hI, hnv, hsch, hcont⟩ := (C34_by_period hr hs0 clip hp h1 h2).1 ⟨k0, hk0⟩
  rw [hv] at e
  cases e
  obtain ⟨v', e, _, st, en, _⟩ := C130_exact hm hl hc hq h hs0 clip hp (hgp ▸ hb) h1 h2
  rw [hv] at e
  cases e
  have e1 : p.startTime = g.base.startOf p.ord := by rw [← hgp]; rfl
  have e2 : p.endTime = g.base.startOf (p.ord + p.freq.mult) - 1 := by rw [← hgp]; rfl
  have hper : ∀ k o, tb.RefIn ⟨g, o⟩ k → (tb.RefIn p k ↔ (p.ord ≤ o ∧ o < p.ord + p.freq.mult)) := by
    intro k o hk
    obtain ⟨b1, b2, b3⟩ := (hval.refIn_per hgm).1 hk
    unfold Timeboard.per at b3
    rw [hval.refIn_iff, e1, e2]
    have c1 := g.base.startOf_le_iff p.ord (tb.timeline.refTime k)
    have c2 := g.base.startOf_le_iff (p.ord + p.freq.mult) (tb.timeline.refTime k)
    rw [b3] at c1 c2
    omega
  have href : ∀ k, tb.RefIn p k → tb.RefIn ⟨g, tb.per g k⟩ k := by
    intro k hk
    obtain ⟨b1, b2, _⟩ := hval.refIn_iff.1 hk
    exact (hval.refIn_per hgm).2 ⟨b1, b2, rfl⟩
  obtain ⟨_, _, _, hfail⟩ := C28_failures hr hI hs g duty
  obtain ⟨z1, z2⟩ := hfail hnv hg hd
  by_cases hany : ∃ k, v.Contains tb k ∧ tb.DutyAt (sch.getD v.schedule) duty k
  · obtain ⟨r, hr'⟩ := (z2 hany).1.2 (by
      rintro p' hp' ⟨x, y, hx, hy, t1, t2⟩
      rw [st] at hx
      rw [en] at hy
      cases hx
      cases hy
      have e1' : p'.startTime = g.base.startOf p'.ord := by rw [← hp']; rfl
      have e2' : p'.endTime = g.base.startOf (p'.ord + 1) - 1 := by
        have : p'.endTime = p'.freq.base.startOf (p'.ord + p'.freq.mult) - 1 := rfl
        rw [this, hp', hgm]; rfl
      have d1 := g.base.startOf_lt_iff p'.ord (p.ord + p.freq.mult)
      have d2 := g.base.startOf_lt_iff p.ord (p'.ord + 1)
      have d3 := g.base.startOf_le_startOf p.ord p'.ord
      have d4 := g.base.startOf_le_startOf (p'.ord + 1) (p.ord + p.freq.mult)
      have d5 := g.base.startOf_lt_iff p'.ord (p'.ord + 1)
      have w1 : tb.Within p'.startTime := by unfold Timeboard.Within at *; omega
      have w2 : tb.Within p'.endTime := by unfold Timeboard.Within at *; omega
      exact ⟨fun _ => Timeboard.Unsplit.has_ref hval hu (by rw [hp']) w1, fun _ => ⟨w1, w2⟩⟩)
    obtain ⟨c1, _, c3⟩ := C28_sum_of_ratios hr hI hs hd hr'
    have hne : ∀ o, tb.partOf v (sch.getD v.schedule) duty ⟨g, o⟩ ≠ 0 → o ∈ os := by
      intro o hx
      obtain ⟨k, _, _, k1, k2, k3⟩ := Timeboard.howMany_pos.1 hx
      obtain ⟨k4, k5⟩ := (hper k o k3).1 ((hcont k).1 k1)
      exact (ho o).2 ⟨k4, k5, k, k2, k3⟩
    rw [hr', c1 os hos hne]
    have hone : ∀ o ∈ os, (tb.partOf v (sch.getD v.schedule) duty ⟨g, o⟩ : Rat) / (tb.wholeOf (sch.getD v.schedule) duty ⟨g, o⟩ : Rat) = 1 := by
      intro o hmem
      obtain ⟨o1, o2, k, k1, k2⟩ := (ho o).1 hmem
      have hsame : tb.partOf v (sch.getD v.schedule) duty ⟨g, o⟩ = tb.wholeOf (sch.getD v.schedule) duty ⟨g, o⟩ := by
        unfold Timeboard.partOf Timeboard.wholeOf
        congr 1
        funext j
        rw [hcont j]
        apply propext
        constructor
        · exact fun q => q.2
        · exact fun q => ⟨(hper j o q.2).2 ⟨o1, o2⟩, q⟩
      have hpos : tb.wholeOf (sch.getD v.schedule) duty ⟨g, o⟩ ≠ 0 := by
        unfold Timeboard.wholeOf
        rw [Timeboard.howMany_pos]
        exact ⟨k, k1.1, k1.2.1, k1, k2⟩
      rw [hsame]
      have : ((tb.wholeOf (sch.getD v.schedule) duty ⟨g, o⟩ : Nat) : Rat) ≠ 0 := by exact_mod_cast hpos
      grind
    congr 1
    clear ho hos c1 hne
    induction os with
    | nil => rfl
    | cons o os ih =>
      rw [List.map_cons, List.sum_cons, ih (fun x hx => hone x (List.mem_cons_of_mem _ hx)), hone o (List.mem_cons_self ..), List.length_cons]
      grind
  · rw [z1 (fun k hk hk' => hany ⟨k, hk, hk'⟩)]
    have : os = [] := by
      rw [List.eq_nil_iff_forall_not_mem]
      intro o hmem
      obtain ⟨o1, o2, k, k1, k2⟩ := (ho o).1 hmem
      exact hany ⟨k, (hcont k).2 ((hper k o k2).2 ⟨o1, o2⟩), k1⟩
    rw [this]
    rfl

/-- Months, in another way from 15 February on. -/
def monthsArgs : Args Int where
  freq := fD
  start := date 2017 1 1
  stop := date 2017 3 31
  layout := .organizer (.marks [date 2017 2 15]) [.organizer (.marker ⟨fM, []⟩) [.label 1, .label 2],
    .organizer (.marker ⟨fM, []⟩) [.organizer (.marker ⟨fW, []⟩) [.label 3], .label 5]]
  selector := fun l => decide (l > 1)
  defaultLabel := 0

example : monthsArgs.layout.Keeps fM ∧ checkGroupbyFreq monthsArgs.freq fM = true ∧ fM.mult = 1 :=
  ⟨.inside (fun e he => by
    simp only [List.mem_cons, List.not_mem_nil, or_false] at he
    rcases he with rfl | rfl <;> exact .periods), by decide +kernel, rfl⟩

-- February consists of the shifts from 1 to 14, 15 to 19, 20 to 26, 27 to 28 February
example : (Timeboard.new monthsArgs (fun _ => Cycle.start [])).map (fun r => (r.1.timeline.wsIdx, r.1.timeline.labels)) =
      .ok ([0, 31, 45, 50, 57, 59], [1, 2, 3, 3, 3, 5]) ∧
    (Timeboard.new monthsArgs (fun _ => Cycle.start [])).map (fun r => showIvl (r.1.getInterval (some (.point (date 2017 2 7))) (period := some fM))) =
      .ok (.ok (1, 4, 4)) ∧
    (Timeboard.new { monthsArgs with refEnd := true } (fun _ => Cycle.start [])).map
      (fun r => showIvl (r.1.getInterval (some (.point (date 2017 2 7))) (period := some fM))) = .ok (.ok (1, 4, 4)) := by decide +kernel

-- January has no workshift on duty: two of the three months are counted
example : fM ∈ countable ∧ (Timeboard.new monthsArgs (fun _ => Cycle.start [])).bind (fun r =>
    (r.1.getInterval (some (.point (date 2017 2 7))) (period := some fQ)).bind (fun v => v.countPeriods r.1 fM)) = .ok 2 := by decide +kernel

-- weeks do not keep within months: with another `workshift_ref` the month has other weeks
example : (Timeboard.new { monthsArgs with layout := .organizer (.marker ⟨fW, []⟩) [.label 1] } (fun _ => Cycle.start [])).map
      (fun r => showIvl (r.1.getInterval (some (.point (date 2017 2 7))) (period := some fM))) = .ok (.ok (6, 9, 4)) ∧
    (Timeboard.new { monthsArgs with layout := .organizer (.marker ⟨fW, []⟩) [.label 1], refEnd := true } (fun _ => Cycle.start [])).map
      (fun r => showIvl (r.1.getInterval (some (.point (date 2017 2 7))) (period := some fM))) = .ok (.ok (5, 8, 4)) := by decide +kernel

end TB
