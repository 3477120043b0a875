import Verif.Lemmas.Continue2
import Verif.Lemmas.Multiplied
import Verif.Lemmas.Regular2
import Verif.Lemmas.Anchor
import Verif.Props.Amend
import Verif.Props.Layout
/-! Properties C73, C74, C75: longer timeboards; patterns and workshifts of markers with `at`. -/
namespace TB
open TB.Ex
variable {L : Type}

/-- The cuts of a layout for which the end of the timeboard does not matter: calendar markers (multiplied or not), markers with
`at` which are local (see `Spec/Marks.lean`; multiplied or not), and explicit marks none of which is later than a second into the last base unit of either frame. -/
def Cut.Settled (f f' : Frame) : Cut → Prop
  | .marker m => m.ats = [] ∨ (checkGroupbyFreq f.freq m.each = true → m.Local f.freq)
  | .marks ts => ∀ g ∈ [f, f'], ∀ t ∈ ts, ¬ (g.unitStart ((g.n : Int) - 1) + nsSec ≤ t ∧ t ≤ g.unitEnd ((g.n : Int) - 1))

theorem Cut.Settled.steady {f f' : Frame} (hf : f.Continued f') {c : Cut} (h : c.Settled f f') : c.Steady f f' := by
  cases c with
  | marker m =>
    rcases h with h | h
    · obtain ⟨each, ats⟩ := m
      simp only at h
      subst h
      exact steady_calendar hf each
    · exact steady_local hf h
  | marks ts =>
    refine steady_marks hf ?_ ?_
    · intro t ht h1
      have := h f (by simp) t ht
      omega
    · intro t ht h1
      have := h f' (by simp) t ht
      omega

/-- **C73.** Two timeboards which differ in their ends only.  If the longer one is built then so is the shorter one, and its
workshifts are the first workshifts of the longer one; only the last of them may be cut short.  Missing from the full statement:
explicit marks which are later than a second into the last base unit of a timeboard (`C73_negation`).
`heap.Fit` says that a RememberingPattern which has no elements has none left. -/
theorem C73_longer_timeboard_partial {a a' : Args L} {heap heap' : Heap L} {tb' : Timeboard L} {f f' : Frame} (hfit : heap.Fit)
    (hs : a' = { a with stop := a'.stop }) (hle : a.stop ≤ a'.stop)
    (hf : Frame.new a.freq a.start a.stop = .ok f) (hf' : Frame.new a.freq a.start a'.stop = .ok f')
    (hcut : a.layout.CutsAll (Cut.Settled f f')) (h' : Timeboard.new a' heap = .ok (tb', heap')) :
    ∃ tb heap1, Timeboard.new a heap = .ok (tb, heap1) ∧ tb.startTime = tb'.startTime ∧ tb.endTime ≤ tb'.endTime ∧
      tb.timeline.len ≤ tb'.timeline.len ∧
      ∀ k, 0 ≤ k → k < tb.timeline.len → ∃ w w' s e e', Workshift.new tb k = .ok w ∧ Workshift.new tb' k = .ok w' ∧
        w.startTime tb = .ok s ∧ w'.startTime tb' = .ok s ∧ w.endTime tb = .ok e ∧ w'.endTime tb' = .ok e' ∧
        (k + 1 < tb.timeline.len → e = e' ∧ w.toTimestamp tb = w'.toTimestamp tb' ∧ w.duration tb = w'.duration tb' ∧ w.label = w'.label) ∧
        (k + 1 = tb.timeline.len → e = tb.endTime ∧ e ≤ e' ∧ ((∀ x ∈ a.amendments, ¬ (e < x.1 ∧ x.1 ≤ e')) → w.label = w'.label)) := by
  have hcont := Frame.new_continued hle hf hf'
  have hn := Frame.new_valid hf
  unfold Frame.Valid at hn
  -- without amendments
  obtain ⟨tb0', p1, _, _, _⟩ := C12_amendments_exact h'
  have hcut' : ∀ org, makeOrganizer a.plain.layout = .ok org → org.CutsAll (Cut.Steady f f') := by
    intro org horg
    refine makeOrganizer_cuts ?_ (Layout.CutsAll.mono (fun c hc => Cut.Settled.steady hcont hc) hcut) horg
    exact Cut.Settled.steady hcont (c := .marks []) (by intro g _ t ht; cases ht)
  obtain ⟨tb0, heap1, q1, q2, q3, q4, q5, q6⟩ := Timeboard.new_prefix (a := a.plain) (a' := a'.plain) hfit rfl
    (by unfold Args.plain; rw [hs]) hle hf hf' hcut' p1
  have hv0 := (Timeboard.Reachable.new q1).valid
  have hv0' := (Timeboard.Reachable.new p1).valid
  -- the same workshifts
  have hws : ∀ k, 0 ≤ k → k < tb0.timeline.len → ∃ w w' s e e', Workshift.new tb0 k = .ok w ∧ Workshift.new tb0' k = .ok w' ∧
        w.startTime tb0 = .ok s ∧ w'.startTime tb0' = .ok s ∧ w.endTime tb0 = .ok e ∧ w'.endTime tb0' = .ok e' ∧
        e ≤ e' ∧ w.label = w'.label ∧
        (k + 1 < tb0.timeline.len → e = e' ∧ w.toTimestamp tb0 = w'.toTimestamp tb0' ∧ w.duration tb0 = w'.duration tb0') ∧
        (k + 1 = tb0.timeline.len → e = tb0.endTime) := by
    intro k k0 k1
    obtain ⟨r1, r2, r3, r4⟩ := q6 k k0 k1
    obtain ⟨w, hw, _, _, hlab, hst, he, hr, hd⟩ := Workshift.exists_of_range hv0 none k0 k1
    obtain ⟨w', hw', _, _, hlab', hst', he', hr', hd'⟩ := Workshift.exists_of_range hv0' none k0 (show k < tb0'.timeline.len by omega)
    have hu : ∀ i, tb0'.timeline.frame.unitStart i = tb0.timeline.frame.unitStart i := by
      intro i; rw [q2, q3]; exact hcont.unitStart i
    rw [hu] at hst' he'
    refine ⟨w, w', _, _, _, hw, hw', hst, by rw [hst', r1], he, he', ?_, ?_, ?_, ?_⟩
    · have := Frame.unitStart_le_iff (f := tb0.timeline.frame) (i := tb0.timeline.bnd (k + 1)) (j := tb0'.timeline.bnd (k + 1))
      have : tb0.timeline.bnd (k + 1) ≤ tb0'.timeline.bnd (k + 1) := by
        rcases Int.lt_or_le (k + 1) tb0.timeline.len with h | h
        · rw [r3 h]; exact Int.le_refl _
        · obtain ⟨x1, x2⟩ := r4 (by omega); omega
      omega
    · rw [hlab, hlab'] at r2
      simpa using r2
    · intro h
      refine ⟨by rw [r3 h], ?_, by rw [hd, hd', r1, r3 h]⟩
      rw [hr, hr']
      unfold Timeline.refTime
      rw [hu, hu, q4, r1, r3 h]
    · intro h
      rw [(r4 h).1]
      unfold Timeboard.endTime Frame.endTime
      rw [q2, Frame.unitEnd_eq, show (f.n : Int) - 1 + 1 = f.n by omega]
  -- no conflicts
  have hat : ∀ t k, tb0.At t k → tb0'.At t k := by
    rintro t k ⟨k0, k1, w, x, y, hw, hx, hy, h1, h2⟩
    obtain ⟨w1, w2, s, e, e', g1, g2, g3, g4, g5, g6, g7, _⟩ := hws k k0 k1
    rw [hw] at g1; cases g1
    rw [hx] at g3; cases g3
    rw [hy] at g5; cases g5
    exact ⟨k0, by omega, w2, _, _, g2, g4, g6, h1, by omega⟩
  have ham : a'.amendments = a.amendments := by rw [hs]
  have hnc : ¬ tb0.Conflict a.amendments := by
    rintro ⟨i, j, p, q, k, h1, h2, h3, h4, h5⟩
    have hcc : tb0'.Conflict a'.amendments := ⟨i, j, p, q, k, h1, by rw [ham]; exact h2, by rw [ham]; exact h3, hat _ _ h4, hat _ _ h5⟩
    have := (C13_conflict_rejected p1).1 hcc
    rw [h'] at this; cases this
  obtain ⟨tb, htb⟩ := (C13_conflict_rejected q1).2.1 hnc
  obtain ⟨tb0x, u1, u2, u3, u4, u5⟩ := C12_amendments_exact htb
  rw [q1] at u1; cases u1
  obtain ⟨tb0y, v1, v2, v3, v4, v5⟩ := C12_amendments_exact h'
  rw [p1] at v1; cases v1
  refine ⟨tb, heap1, htb, ?_, ?_, by omega, ?_⟩
  · rw [u2, v2]
    unfold Timeboard.startTime Frame.startTime
    rw [q2, q3, hcont.unitStart]
  · rw [u3, v3]
    unfold Timeboard.endTime Frame.endTime
    rw [q2, q3, hcont.unitEnd, Frame.unitEnd_eq, Frame.unitEnd_eq]
    have := hcont.2.2
    have := Frame.unitStart_le_iff (f := f) (i := (f.n : Int) - 1 + 1) (j := (f'.n : Int) - 1 + 1)
    omega
  · intro k k0 k1
    obtain ⟨w0, w0', s, e, e', g1, g2, g3, g4, g5, g6, g7, g8, g9, g10⟩ := hws k k0 (by omega)
    obtain ⟨w, x0, m1, m2, m3, m4, m5, m6, m7, m8⟩ := u5 k k0 k1
    obtain ⟨w', x0', n1, n2, n3, n4, n5, n6, n7, n8⟩ := v5 k k0 (by omega)
    rw [g1] at m2; cases m2
    rw [g2] at n2; cases n2
    rw [g3] at m3; rw [g5] at m4; rw [g4] at n3; rw [g6] at n4
    -- labels
    have hlab : (∀ x ∈ a.amendments, ¬ (e < x.1 ∧ x.1 ≤ e')) → w.label = w'.label := by
      intro hno
      by_cases hex : ∃ x ∈ a.amendments, tb'.At x.1 k
      · obtain ⟨x, hx, hxa⟩ := hex
        have h1 := n7 x.1 x.2 (by rw [ham]; exact hx) hxa
        obtain ⟨_, _, y, y1, y2, z1, z2, z3, z4, z5⟩ := hxa
        rw [n1] at z1; cases z1
        rw [n3] at z2; cases z2
        rw [n4] at z3; cases z3
        have := hno x hx
        have h2 := m7 x.1 x.2 hx ⟨k0, k1, w, s, e, m1, m3, m4, z4, by omega⟩
        rw [h1, h2]
      · have h1 := n8 (fun t v hm hat => hex ⟨(t, v), by rw [← ham]; exact hm, hat⟩)
        have h2 := m8 (by
          rintro t v hm ⟨_, _, y, y1, y2, z1, z2, z3, z4, z5⟩
          rw [m1] at z1; cases z1
          rw [m3] at z2; cases z2
          rw [m4] at z3; cases z3
          exact hex ⟨(t, v), hm, k0, by omega, w', s, e', n1, n3, n4, z4, by omega⟩)
        rw [h1, h2, g8]
    refine ⟨w, w', s, e, e', m1, n1, m3, n3, m4, n4, ?_, ?_⟩
    · intro h
      obtain ⟨y1, y2, y3⟩ := g9 (by omega)
      refine ⟨y1, by rw [m5, n5, y2], by rw [m6, n6, y3], hlab ?_⟩
      intro x _ hx
      omega
    · intro h
      exact ⟨by rw [u3]; exact g10 (by omega), g7, hlab⟩

/-- The hypotheses hold for marks at 8:00 and 20:00 of each day or of every other day, for the last Monday of May and for Good Friday. -/
example : (Cut.marker (offsetMarker fD [{ hours := 8 }, { hours := 20 }])).Settled ⟨fH, 0, 30⟩ ⟨fH, 0, 60⟩ ∧
    (Cut.marker (offsetMarker { fD with factor := some 2, pos := by decide } [{ hours := 8 }, { hours := 44 }])).Settled ⟨fH, 0, 30⟩ ⟨fH, 0, 60⟩ ∧
    (Cut.marker (weekdayMarker fA [(5, -1, 1)])).Settled ⟨fD, 0, 30⟩ ⟨fD, 0, 60⟩ ∧
    (Cut.marker (easterMarker [-2])).Settled ⟨fD, 0, 30⟩ ⟨fD, 0, 60⟩ ∧ heap0.Fit := by
  refine ⟨.inr fun h => (local_offsets h rfl (by decide) (by decide +kernel)).1,
    .inr fun h => (local_offsets h rfl (by decide) (by decide +kernel)).1, .inr fun h => Marker.Regular.toLocal ?_ h,
    .inr fun h => Marker.Regular.toLocal ?_ h, ?_⟩
  · exact (regular_weekday rfl (by decide) (.inr (.inr (.inr rfl))) (by decide) (by intro x hx; simp only [List.mem_singleton] at hx; subst hx; unfold NthArgs; decide)).1
  · exact (regular_easter (.inr (.inr (.inr rfl))) (by decide)).1
  · intro i h; exact h

/-- Hours from midnight of 1 January 2017, cut at 8:00 and 20:00 every day. -/
def watchArgs (stop : Time) : Args Int where
  freq := fH
  start := date 2017 1 1
  stop := stop
  layout := .organizer (.marker (offsetMarker fD [{ hours := 8 }, { hours := 20 }])) [.label 1, .label 2, .label 3]
  amendments := [(date 2017 1 2, 7)]
  selector := fun l => l != 0
  defaultLabel := 0

example : (Timeboard.new (watchArgs (date 2017 1 2)) heap0).map (fun r => (r.1.timeline.wsIdx, r.1.timeline.labels)) = .ok ([0, 8, 20], [1, 2, 7]) ∧
    (Timeboard.new (watchArgs (date 2017 1 3)) heap0).map (fun r => (r.1.timeline.wsIdx, r.1.timeline.labels)) =
      .ok ([0, 8, 20, 32, 44], [1, 2, 7, 1, 2]) := by decide +kernel

/-- Days cut at noon of 3 January 2017. -/
def noonArgs (stop : Time) : Args Int where
  freq := fD
  start := date 2017 1 1
  stop := stop
  layout := .organizer (.marks [date 2017 1 3 + 12 * nsHour]) [.label 1, .label 2]
  selector := fun l => l != 0
  defaultLabel := 0

/-- The full statement of C73 fails for explicit marks: a timeboard until 3 January has a single workshift, which does not end
where the first workshift of the longer timeboard ends. -/
theorem C73_negation : (Timeboard.new (noonArgs (date 2017 1 3)) heap0).map (fun r => (r.1.timeline.wsIdx, r.1.endTime)) =
      .ok ([0], date 2017 1 4 - 1) ∧
    (Timeboard.new (noonArgs (date 2017 1 5)) heap0).map (fun r => (r.1.timeline.wsIdx, (r.1.getWorkshift (date 2017 1 1)).bind (fun w => w.endTime r.1))) =
      .ok ([0, 2], .ok (date 2017 1 3 - 1)) := by decide +kernel

/-- **C74.** A pattern after a marker with `at`: labels are counted from the latest mark, so that a timeboard need not start at a
mark; but there must be a mark in the period of the marker which contains the point of one period before the start, or later. -/
theorem C74_anchored_pattern {a : Args L} {heap : Heap L} {m : Marker} {xs : List L} {f : Frame}
    (ha : a.amendments = []) (hlay : a.layout = .organizer (.marker m) [.pattern (.list xs)]) (hx : xs ≠ [])
    (hw : a.worktimeSource ∈ ["duration", "labels"]) (hf : Frame.new a.freq a.start a.stop = .ok f)
    (hc : checkGroupbyFreq a.freq m.each = true) (hr : m.Regular a.freq) :
    ((∃ u, m.Mark a.freq u ∧ u ≤ f.startTime ∧ (Period.ofTime m.each (f.startTime - getFreqDelta m.each)).startTime ≤ u) →
      ∃ tb, Timeboard.new a heap = .ok (tb, heap) ∧
      ∀ (t : Time) (sch : Option (Schedule L)), tb.startTime ≤ t → t ≤ tb.endTime →
        ∃ w u, tb.getWorkshift t sch = .ok w ∧ w.startTime tb = .ok (Period.ofTime a.freq t).startTime ∧ w.duration tb = .ok 1 ∧
          m.Latest a.freq t u ∧ cyclic xs ((Period.ofTime a.freq t).ord - (Period.ofTime a.freq u).ord).toNat = some w.label) ∧
    ((∀ u, m.Mark a.freq u → u ≤ f.startTime → u < (Period.ofTime m.each (f.startTime - getFreqDelta m.each)).startTime) →
      Timeboard.new a heap = .error .outOfBounds) := by
  have hn := Frame.new_valid hf
  unfold Frame.Valid at hn
  have hff : f.freq = a.freq := by rw [(Frame.new_ok_iff.1 hf).2]
  rw [← hff] at hc hr ⊢
  obtain ⟨hbu, hal⟩ := checkGroupby_unit hc hr.mult
  obtain ⟨ss, x0, g1, g2, g3, g4, g5⟩ := Frame.partition_regular (f := f) (s := { first := 0, last := (f.n : Int) - 1 }) hr hc (by simp) (by simp only; omega) (by simp only; omega)
  have hse : f.startTime = f.unitStart 0 := rfl
  have horg : makeOrganizer a.layout = .ok (.organizer (.marker m) [.pattern (.list xs)]) := by rw [hlay]; rfl
  have hlt : ∀ (b : Time) (u : Time), u < (Period.ofTime m.each b).startTime ↔ m.each.base.ordOf u < m.each.base.ordOf b := by
    intro b u
    unfold Period.ofTime Period.startTime
    simp only
    have := m.each.base.startOf_le_iff (m.each.base.ordOf b) u
    omega
  have hord : ∀ j, f.ord j = f.ord 0 + j := by intro j; simp [Frame.ord, hbu]
  constructor
  · rintro ⟨u, u1, u2, u3⟩
    have hx0 : 0 ≤ x0 := by
      rcases g5.nonneg with ⟨_, h⟩ | ⟨h, _⟩
      · have h1 := h u u1 (by rw [← hse]; exact u2)
        have h2 := (hlt (f.startTime - getFreqDelta m.each) u).2 (by rw [hse]; exact h1)
        omega
      · exact h
    have hidx : ∀ x ∈ ss, ∀ i, x.first ≤ i → i ≤ x.last → _ := fun x hx i h1 h2 =>
      regular_index (s := { first := 0, last := (f.n : Int) - 1 }) hr hbu g2 g3 g4 g5 hx0 hx h1 h2
    obtain ⟨tb, k1, k2, k3⟩ := Timeboard.pattern_organizer (heap := heap) ha horg rfl hx hw hf (by exact g1)
      (fun s hs => (hidx s hs s.first (Int.le_refl _) (g2.mem hs).2.1).1)
    refine ⟨tb, k1, ?_⟩
    have hR := Timeboard.Reachable.new k1
    intro t sch h1 h2
    have hus : ∀ j, f.unitStart j = f.freq.base.startOf (f.ord j) := fun j => rfl
    have hst : tb.startTime = f.unitStart 0 := by unfold Timeboard.startTime Frame.startTime; rw [k2]
    have hen : tb.endTime = f.unitStart f.n - 1 := by
      unfold Timeboard.endTime Frame.endTime; rw [k2, Frame.unitEnd_eq]; congr 2; omega
    rw [hst] at h1
    rw [hen] at h2
    have o1 : f.ord 0 ≤ f.freq.base.ordOf t := by rw [← f.freq.base.startOf_le_iff]; exact h1
    have o2 : f.freq.base.ordOf t < f.ord 0 + f.n := by
      rw [← f.freq.base.lt_startOf_iff, ← hord, ← hus]; omega
    have hi := hord (f.freq.base.ordOf t - f.ord 0)
    obtain ⟨k, x, hk, x1, x2⟩ := g2.cover (i := f.freq.base.ordOf t - f.ord 0) (by simp only; omega) (by simp only; omega)
    have hxm := List.mem_of_getElem? hk
    obtain ⟨_, v, ⟨v1, v2, v3⟩, v4⟩ := hidx x hxm _ x1 x2
    obtain ⟨l, l1, l2⟩ := k3 x hxm _ x1 x2
    have hi' : f.ord (f.freq.base.ordOf t - f.ord 0) = f.freq.base.ordOf t := by omega
    have hi2 : f.ord (f.freq.base.ordOf t - f.ord 0 + 1) = f.freq.base.ordOf t + 1 := by rw [hord]; omega
    have t1 : f.unitStart (f.freq.base.ordOf t - f.ord 0) ≤ t := by rw [hus, hi']; exact f.freq.base.startOf_le_self t
    have t2 : t < f.unitStart (f.freq.base.ordOf t - f.ord 0 + 1) := by rw [hus, hi2]; exact f.freq.base.lt_startOf_succ t
    have hst' : f.unitStart (f.freq.base.ordOf t - f.ord 0) = f.freq.base.startOf (f.freq.base.ordOf t) := by rw [hus, hi']
    have hlat : ∀ u', m.Mark f.freq u' → u' ≤ t → u' ≤ v := by
      intro u' hu' hle
      refine v3 u' hu' ?_
      have e := hr.mark_unit hbu hu'
      rw [hst', e, hus, f.freq.base.startOf_le_startOf]
      have e3 := f.freq.base.ordOf_mono hle
      have e4 : f.ord (f.freq.base.ordOf u' - f.o0) = f.freq.base.ordOf u' := by unfold Frame.ord; rw [hbu]; omega
      rw [e4]; exact e3
    rw [← k2] at l1 t1 t2
    obtain ⟨w, w1, w2, w3, w4⟩ := Timeboard.Starts.getWorkshift hR l1 t1 t2 sch
    rw [k2] at w3 t1
    refine ⟨w, v, w1, ?_, w4, ⟨v1, by omega, hlat⟩, ?_⟩
    · rw [w3, hus, hi']; rfl
    · rw [w2, ← l2, v4, hi']
      rfl
  · intro hno
    have hx0 : x0 = -1 := by
      rcases g5.nonneg with ⟨h, _⟩ | ⟨_, u, u1, u2, u3⟩
      · exact h
      · have := (hlt _ _).1 (hno u u1 (by rw [hse]; exact u2))
        rw [hse] at this
        simp only at u3
        omega
    subst hx0
    refine Timeboard.new_of_run_error horg hw hf ?_
    cases ss with
    | nil => exact g2.elim
    | cons y r =>
      have hy : y.skipLeft = -1 := g4.1
      simp only [Layout.run, Frame.cutSpan, g1, Layout.runAll, zipRun, Cycle.start, Cycle.next]
      unfold applyPattern
      rw [if_pos (by omega)]

/-- **C74**, on two timeboards: where both are defined the labels are the same. -/
theorem C74_independent_of_bounds {a b : Args L} {ha hb ha' hb' : Heap L} {m : Marker} {xs : List L} {ta tb : Timeboard L}
    (h1 : a.amendments = []) (h2 : b.amendments = []) (h3 : a.freq = b.freq)
    (h4 : a.layout = .organizer (.marker m) [.pattern (.list xs)]) (h5 : b.layout = a.layout) (hx : xs ≠ [])
    (hc : checkGroupbyFreq a.freq m.each = true) (hr : m.Regular a.freq)
    (hta : Timeboard.new a ha = .ok (ta, ha')) (htb : Timeboard.new b hb = .ok (tb, hb'))
    {t : Time} (t1 : ta.startTime ≤ t) (t2 : t ≤ ta.endTime) (t3 : tb.startTime ≤ t) (t4 : t ≤ tb.endTime) (sa sb : Option (Schedule L)) :
    ∃ w w', ta.getWorkshift t sa = .ok w ∧ tb.getWorkshift t sb = .ok w' ∧ w.label = w'.label ∧
      w.startTime ta = w'.startTime tb ∧ w.duration ta = w'.duration tb := by
  have key : ∀ {c : Args L} {hp hp' : Heap L} {tc : Timeboard L}, c.amendments = [] → c.layout = .organizer (.marker m) [.pattern (.list xs)] →
      c.freq = a.freq → Timeboard.new c hp = .ok (tc, hp') → tc.startTime ≤ t → t ≤ tc.endTime → ∀ sch,
      ∃ w u, tc.getWorkshift t sch = .ok w ∧ w.startTime tc = .ok (Period.ofTime a.freq t).startTime ∧ w.duration tc = .ok 1 ∧
          m.Latest a.freq t u ∧ cyclic xs ((Period.ofTime a.freq t).ord - (Period.ofTime a.freq u).ord).toNat = some w.label := by
    intro c hp hp' tc c1 c2 c3 c4 c5 c6 sch
    obtain ⟨org, f, tl0, tl, d1, d2, d3, _⟩ := Timeboard.new_ok_iff.1 c4
    obtain ⟨e1, e2⟩ := C74_anchored_pattern (heap := hp) c1 c2 hx d2 d3 (by rw [c3]; exact hc) (by rw [c3]; exact hr)
    by_cases hex : ∃ u, m.Mark c.freq u ∧ u ≤ f.startTime ∧ (Period.ofTime m.each (f.startTime - getFreqDelta m.each)).startTime ≤ u
    · obtain ⟨tc', k1, k2⟩ := e1 hex
      rw [c4] at k1; cases k1
      rw [← c3]
      exact k2 t sch c5 c6
    · have := e2 (by
        intro u u1 u2
        rcases Int.lt_or_le u (Period.ofTime m.each (f.startTime - getFreqDelta m.each)).startTime with h | h
        · exact h
        · exact absurd ⟨u, u1, u2, h⟩ hex)
      rw [c4] at this; cases this
  obtain ⟨w, u, p1, p2, p3, ⟨p4, p5, p6⟩, p7⟩ := key h1 h4 rfl hta t1 t2 sa
  obtain ⟨w', u', q1, q2, q3, ⟨q4, q5, q6⟩, q7⟩ := key h2 (h5.trans h4) h3.symm htb t3 t4 sb
  have a1 := p6 u' q4 q5
  have a2 := q6 u p4 p5
  have : u = u' := by omega
  subst this
  rw [p7] at q7
  exact ⟨w, w', p1, q1, by simpa using q7, by rw [p2, q2], by rw [p3, q3]⟩

/-- Days of labels 1, 2, 3, ... from the last Monday of May; the timeboard starts on 1 June 2017, the mark is on 29 May 2017.
There is no fifth Sunday of February in 2016 and 2017. -/
def mayArgs (x : Int × Int × Int) : Args Int where
  freq := fD
  start := date 2017 6 1
  stop := date 2017 6 10
  layout := .organizer (.marker (weekdayMarker fA [x])) [.pattern (.list [1, 2, 3, 4, 5])]
  selector := fun l => l != 0
  defaultLabel := 0

example : (Timeboard.new (mayArgs (5, -1, 1)) heap0).map (fun r => r.1.timeline.labels) = .ok [4, 5, 1, 2, 3, 4, 5, 1, 2, 3] ∧
    (Timeboard.new (mayArgs (2, 5, 7)) heap0).map (fun r => r.1.timeline.labels) = .error .outOfBounds ∧
    checkGroupbyFreq fD fA = true := by decide +kernel

/-- **C75.** Labels after a regular marker: apart from the first workshift of the timeboard, workshifts start exactly at the marks,
and they take the labels in turns. -/
theorem C75_marked_workshifts {a : Args L} {heap : Heap L} {m : Marker} {ls : List L} {f : Frame}
    (ha : a.amendments = []) (hlay : a.layout = .organizer (.marker m) (ls.map .label)) (hls : ls ≠ [])
    (hw : a.worktimeSource ∈ ["duration", "labels"]) (hf : Frame.new a.freq a.start a.stop = .ok f)
    (hc : checkGroupbyFreq a.freq m.each = true) (hr : m.Regular a.freq) :
    ∃ tb, Timeboard.new a heap = .ok (tb, heap) ∧ tb.startTime = f.startTime ∧
      (∀ t, (∃ d l, tb.Starts t d l) ↔ (t = tb.startTime ∨ (m.Mark a.freq t ∧ tb.startTime < t ∧ t ≤ tb.endTime))) ∧
      ∀ k, 0 ≤ k → k < tb.timeline.len → ∃ w, Workshift.new tb k = .ok w ∧ cyclic ls k.toNat = some w.label := by
  have hn := Frame.new_valid hf
  unfold Frame.Valid at hn
  have hff : f.freq = a.freq := by rw [(Frame.new_ok_iff.1 hf).2]
  rw [← hff] at hc hr ⊢
  obtain ⟨hbu, hal⟩ := checkGroupby_unit hc hr.mult
  obtain ⟨ss, x0, g1, g2, g3, g4, g5⟩ := Frame.partition_regular (f := f) (s := { first := 0, last := (f.n : Int) - 1 }) hr hc (by simp) (by simp only; omega) (by simp only; omega)
  obtain ⟨tb, k1', k2, k3⟩ := Timeboard.labels_organizer (heap := heap) ha hlay hls hw hf (by exact g1)
  have e : tb.startTime = f.unitStart 0 := by unfold Timeboard.startTime Frame.startTime; rw [k2]
  have hen : tb.endTime = f.unitStart f.n - 1 := by
    unfold Timeboard.endTime Frame.endTime; rw [k2, Frame.unitEnd_eq]; congr 2; omega
  refine ⟨tb, k1', e, ?_, ?_⟩
  · intro t
    constructor
    · rintro ⟨d, l, hst⟩
      obtain ⟨k, x, hk, rfl, _⟩ := (k3 _ _ _).1 hst
      have hx := List.mem_of_getElem? hk
      have hxm := g2.mem hx
      simp only at hxm
      rcases Int.lt_or_le 0 x.first with h | h
      · refine .inr ⟨(g3 x.first h (by simp only; omega)).1 ⟨x, hx, rfl⟩, ?_, ?_⟩
        · rw [e]; exact Frame.unitStart_lt h
        · rw [hen]
          have := @Frame.unitStart_lt f x.first f.n (by omega)
          omega
      · have : x.first = 0 := by omega
        exact .inl (by rw [e, this])
    · rintro (rfl | ⟨h1, h2, h3⟩)
      · rw [e, starts_of_spans hls k3]
        obtain ⟨k, x, hk, hx1, hx2⟩ := g2.cover (i := 0) (by simp only; omega) (by simp only; omega)
        have := g2.mem (List.mem_of_getElem? hk)
        simp only at this
        exact ⟨x, List.mem_of_getElem? hk, by omega⟩
      · have em := hr.mark_unit hbu h1
        generalize f.freq.base.ordOf t - f.o0 = j at em
        subst em
        rw [e, Frame.unitStart_lt_iff] at h2
        have h4 := Frame.unitStart_lt_iff (f := f) (i := j) (j := f.n)
        rw [starts_of_spans hls k3]
        exact (g3 j h2 (by simp only; omega)).2 h1
  · intro k k0 k1
    obtain ⟨w, x, w1, _, _, w2⟩ := labels_position (Timeboard.Reachable.new k1') k2 g2 hls k3 k0 k1
    exact ⟨w, w1, w2⟩

/-- **C75**, for multiplied frequencies: periods are counted from the calendar period which contains the point `getFreqDelta` before
the start of the timeboard. -/
theorem C75_multiplied {a : Args L} {heap : Heap L} {m : Marker} {ls : List L} {f : Frame}
    (ha : a.amendments = []) (hlay : a.layout = .organizer (.marker m) (ls.map .label)) (hls : ls ≠ [])
    (hw : a.worktimeSource ∈ ["duration", "labels"]) (hf : Frame.new a.freq a.start a.stop = .ok f)
    (hc : checkGroupbyFreq a.freq m.each = true) (hr : m.Local a.freq) :
    ∃ tb, Timeboard.new a heap = .ok (tb, heap) ∧ tb.startTime = f.startTime ∧
      (∀ t, (∃ d l, tb.Starts t d l) ↔ (t = tb.startTime ∨ (m.MarkFrom a.freq (Period.ofTime m.each (f.startTime - getFreqDelta m.each)).ord t ∧ tb.startTime < t ∧ t ≤ tb.endTime))) ∧
      ∀ k, 0 ≤ k → k < tb.timeline.len → ∃ w, Workshift.new tb k = .ok w ∧ cyclic ls k.toNat = some w.label := by
  have hn := Frame.new_valid hf
  unfold Frame.Valid at hn
  have hff : f.freq = a.freq := by rw [(Frame.new_ok_iff.1 hf).2]
  rw [← hff] at hc hr ⊢
  obtain ⟨ss, x0, g1, g2, g3, g4, g5⟩ := Frame.partition_local (f := f) (s := { first := 0, last := (f.n : Int) - 1 }) hr hc (by simp) (by simp only; omega) (by simp only; omega)
  obtain ⟨tb, k1', k2, k3⟩ := Timeboard.labels_organizer (heap := heap) ha hlay hls hw hf (by exact g1)
  have e : tb.startTime = f.unitStart 0 := by unfold Timeboard.startTime Frame.startTime; rw [k2]
  have hen : tb.endTime = f.unitStart f.n - 1 := by
    unfold Timeboard.endTime Frame.endTime; rw [k2, Frame.unitEnd_eq]; congr 2; omega
  refine ⟨tb, k1', e, ?_, ?_⟩
  · intro t
    constructor
    · rintro ⟨d, l, hst⟩
      obtain ⟨k, x, hk, rfl, _⟩ := (k3 _ _ _).1 hst
      have hx := List.mem_of_getElem? hk
      have hxm := g2.mem hx
      simp only at hxm
      rcases Int.lt_or_le 0 x.first with h | h
      · refine .inr ⟨(g3 x.first h (by simp only; omega)).1 ⟨x, hx, rfl⟩, ?_, ?_⟩
        · rw [e]; exact Frame.unitStart_lt h
        · rw [hen]
          have := @Frame.unitStart_lt f x.first f.n (by omega)
          omega
      · have : x.first = 0 := by omega
        exact .inl (by rw [e, this])
    · rintro (rfl | ⟨h1, h2, h3⟩)
      · rw [e, starts_of_spans hls k3]
        obtain ⟨k, x, hk, hx1, hx2⟩ := g2.cover (i := 0) (by simp only; omega) (by simp only; omega)
        have := g2.mem (List.mem_of_getElem? hk)
        simp only at this
        exact ⟨x, List.mem_of_getElem? hk, by omega⟩
      · have em := hr.mark_unit h1
        generalize f.freq.base.ordOf t - f.o0 = j at em
        subst em
        rw [e, Frame.unitStart_lt_iff] at h2
        have h4 := Frame.unitStart_lt_iff (f := f) (i := j) (j := f.n)
        rw [starts_of_spans hls k3]
        exact (g3 j h2 (by simp only; omega)).2 h1
  · intro k k0 k1
    obtain ⟨w, x, w1, _, _, w2⟩ := labels_position (Timeboard.Reachable.new k1') k2 g2 hls k3 k0 k1
    exact ⟨w, w1, w2⟩

/-- **C75**, for the n-th weekdays of months (`each` consists of whole months and is not multiplied; base units of a day or
shorter). -/
theorem C75_weekday_marks {bu each : Freq} {args : List (Int × Int × Int)} (hm : each.mult = 1) (hmon : each.base.Monthly) (hd : bu.Daily)
    (hne : args ≠ []) (hargs : ∀ x ∈ args, NthArgs x.1 x.2.1 x.2.2) :
    (weekdayMarker each args).Regular bu ∧ ∀ t, (weekdayMarker each args).Mark bu t ↔
      ∃ x ∈ args, ∃ p : Period, p.freq = each ∧ ∃ k d, k = monthOf (dayOf p.startTime) + (x.1 - 1) ∧ monthStart k * nsDay ≤ p.endTime ∧
        IsNthWeekday k (x.2.2 - 1) x.2.1 d ∧ t = d * nsDay := regular_weekday hm hmon hd hne hargs

/-- **C75**, for Easter. -/
theorem C75_easter_marks {bu : Freq} {shifts : List Int} (hd : bu.Daily) (hne : shifts ≠ []) :
    (easterMarker shifts).Regular bu ∧ ∀ t, (easterMarker shifts).Mark bu t ↔
      ∃ sh ∈ shifts, ∃ y, t = (easterDay false y + sh) * nsDay ∧ date y 1 1 ≤ t ∧ t < date (y + 1) 1 1 := regular_easter hd hne

/-- **C75**, for offsets from the start of each period. -/
theorem C75_offset_marks {bu each : Freq} {offs : List Offset} (hc : checkGroupbyFreq bu each = true) (hm : each.mult = 1) (hne : offs ≠ [])
    (hpos : ∀ o ∈ offs, o.Nonneg) :
    (offsetMarker each offs).Regular bu ∧ ∀ t, (offsetMarker each offs).Mark bu t ↔
      ∃ off ∈ offs, ∃ p : Period, p.freq = each ∧ addOffset p.startTime (some off) ≤ p.endTime ∧ t = snap bu (addOffset p.startTime (some off)) :=
  regular_offsets hc hm hne hpos

/-- **C75**, for offsets from the start of each period of a frequency, multiplied or not. -/
theorem C75_multiplied_offset_marks {bu each : Freq} {offs : List Offset} (hc : checkGroupbyFreq bu each = true) (hm : bu.mult = 1)
    (hne : offs ≠ []) (hpos : ∀ o ∈ offs, o.Nonneg) :
    (offsetMarker each offs).Local bu ∧ ∀ o0 t, (offsetMarker each offs).MarkFrom bu o0 t ↔
      ∃ off ∈ offs, ∃ i : Nat, addOffset (Period.mk each (o0 + each.mult * i)).startTime (some off) ≤ (Period.mk each (o0 + each.mult * i)).endTime ∧
        t = snap bu (addOffset (Period.mk each (o0 + each.mult * i)).startTime (some off)) := local_offsets hc hm hne hpos

/-- **C44**, the zero offset with a multiplied frequency, as coded: the marks are the starts of the periods counted from the period
which contains the point one multiplied period before the start of the timeboard (not, as for a plain marker, from the period which
contains the start itself, `C44_negation_multiplied`). -/
theorem C44_zero_offset_marks_partial {a : Args L} {heap : Heap L} {each : Freq} {ls : List L} {f : Frame}
    (ha : a.amendments = []) (hlay : a.layout = .organizer (.marker (offsetMarker each [{ days := 0 }])) (ls.map .label)) (hls : ls ≠ [])
    (hw : a.worktimeSource ∈ ["duration", "labels"]) (hf : Frame.new a.freq a.start a.stop = .ok f)
    (hc : checkGroupbyFreq a.freq each = true) (hm : a.freq.mult = 1) :
    ∃ tb, Timeboard.new a heap = .ok (tb, heap) ∧ tb.startTime = f.startTime ∧
      ∀ t, (∃ d l, tb.Starts t d l) ↔ (t = tb.startTime ∨ (tb.startTime < t ∧ t ≤ tb.endTime ∧
        ∃ i : Nat, t = (Period.mk each ((Period.ofTime each (f.startTime - getFreqDelta each)).ord + each.mult * i)).startTime)) := by
  obtain ⟨hl, hmk⟩ := C75_multiplied_offset_marks (offs := [{ days := 0 }]) hc hm (by simp) (by
    intro o ho
    rw [List.mem_singleton.1 ho]
    decide)
  obtain ⟨tb, h1, h2, h3, _⟩ := C75_multiplied (heap := heap) ha hlay hls hw hf hc hl
  refine ⟨tb, h1, h2, fun t => ?_⟩
  rw [h3 t]
  have key : ∀ o, snap a.freq (Period.mk each o).startTime = (Period.mk each o).startTime := by
    intro o
    rcases checkGroupby_aligned hc with ⟨_, al⟩ | ⟨e, _⟩
    · obtain ⟨o', e⟩ := al o
      show snap a.freq (each.base.startOf o) = each.base.startOf o
      unfold snap
      rw [e, Base.ordOf_startOf]
    · show snap a.freq (each.base.startOf o) = each.base.startOf o
      unfold snap
      rw [e, Base.ordOf_startOf]
  have hz : ∀ t, addOffset t (some { days := 0 }) = t := addOffset_zero
  rw [show (offsetMarker each [{ days := 0 }]).each = each from rfl, hmk]
  have hse : ∀ o, (Period.mk each o).startTime ≤ (Period.mk each o).endTime := fun o => Period.start_le_end _
  constructor
  · rintro (h | ⟨⟨off, ho, i, _, e⟩, g1, g2⟩)
    · exact .inl h
    · rw [List.mem_singleton.1 ho, hz, key] at e
      exact .inr ⟨g1, g2, i, e⟩
  · rintro (h | ⟨g1, g2, i, e⟩)
    · exact .inl h
    · refine .inr ⟨⟨_, List.mem_singleton.2 rfl, i, ?_, ?_⟩, g1, g2⟩
      · rw [hz]; exact hse _
      · rw [hz, key]; exact e

/-- Pairs of months are counted from October 2016, as 31 October is 62 days before the start. -/
def zeroArgs : Args Int where
  freq := fD
  start := date 2017 1 1
  stop := date 2017 7 31
  layout := .organizer (.marker (offsetMarker { fM with factor := some 2, pos := by decide } [{ days := 0 }])) [.label 0, .label 1]
  selector := fun l => l != 0
  defaultLabel := 0

example : (Timeboard.new zeroArgs heap0).map (fun r => (r.1.timeline.wsIdx, r.1.timeline.labels)) = .ok ([0, 31, 90, 151], [0, 1, 0, 1]) ∧
    checkGroupbyFreq zeroArgs.freq { fM with factor := some 2, pos := by decide } = true ∧ zeroArgs.freq.mult = 1 := by
  decide +kernel

/-- Fortnights which start on Tuesday of the first week and Wednesday of the second. -/
def fortnightArgs : Args Int where
  freq := fD
  start := date 2017 1 2
  stop := date 2017 1 31
  layout := .organizer (.marker (offsetMarker { fW with factor := some 2, pos := by decide } [{ days := 1 }, { days := 9 }])) [.label 0, .label 1]
  selector := fun l => l != 0
  defaultLabel := 0

example : (Timeboard.new fortnightArgs heap0).map (fun r => (r.1.timeline.wsIdx, r.1.timeline.labels)) = .ok ([0, 1, 9, 15, 23, 29], [0, 1, 0, 1, 0, 1]) ∧
    checkGroupbyFreq fD { fW with factor := some 2, pos := by decide } = true := by
  decide +kernel

/-- Seasons which start on the second Sunday of March and on the first Sunday of November (US daylight saving time). -/
def dstArgs : Args Int where
  freq := fD
  start := date 2016 1 1
  stop := date 2017 12 31
  layout := .organizer (.marker (weekdayMarker fA [(3, 2, 7), (11, 1, 7)])) [.label 0, .label 1]
  selector := fun l => l != 0
  defaultLabel := 0

example : (Timeboard.new dstArgs heap0).map (fun r => (r.1.timeline.wsIdx, r.1.timeline.labels)) = .ok ([0, 72, 310, 436, 674], [0, 1, 0, 1, 0]) := by
  decide +kernel

end TB
