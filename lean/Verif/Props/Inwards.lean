import Verif.Lemmas.Inwards
import Verif.Props.AnyDepth
/-! Property C129: the workshift at a point in time is found from the outside inwards. -/
namespace TB
open TB.Ex
variable {L : Type}

/-- What is read of any layout and of the amendments. -/
theorem Timeboard.read_of_new {a : Args L} {heap heap' : Heap L} {m : Memory L} (hm : heap.Shows m) {tb : Timeboard L}
    (h : Timeboard.new a heap = .ok (tb, heap')) :
    ∃ f ps m' qs, Frame.new a.freq a.start a.stop = .ok f ∧
      Layout.read f a.defaultLabel a.layout { first := 0, last := (f.n : Int) - 1 } m = .ok (ps, m') ∧
      amendPieces f a.amendments ps = .ok qs ∧ heap'.Shows m' ∧ tb.ConsistsOf f qs := by
  obtain ⟨f, qs, m', h1, h2, h3⟩ := C97_read_back hm h
  have h1 : a.readLayout a.layout m = .ok (f, qs, m') := by
    unfold Args.read at h1
    split at h1
    · cases h1
    · cases h1
    · exact h1
  unfold Args.readLayout at h1
  rw [Args.frame_eq] at h1
  split at h1
  · cases h1
  · cases hf : Frame.new a.freq a.start a.stop with
    | error e => rw [hf] at h1; cases h1
    | ok f' =>
      rw [hf] at h1
      simp only at h1
      cases hr : Layout.read f' a.defaultLabel a.layout { first := 0, last := (f'.n : Int) - 1 } m with
      | error e => rw [hr] at h1; cases h1
      | ok r =>
        obtain ⟨ps, m1⟩ := r
        rw [hr] at h1
        simp only at h1
        cases hq : amendPieces f' a.amendments ps with
        | error e => rw [hq] at h1; cases h1
        | ok qs' =>
          rw [hq] at h1
          cases h1
          exact ⟨_, ps, _, _, rfl, hr, hq, h2, h3⟩

/-- **C129.** -/
theorem C129_inwards {a : Args L} {heap heap' : Heap L} {m : Memory L} (hm : heap.Shows m) {tb : Timeboard L}
    (h : Timeboard.new a heap = .ok (tb, heap')) :
    ∃ f, Frame.new a.freq a.start a.stop = .ok f ∧ ∀ (t : Time) (sch : Option (Schedule L)), tb.startTime ≤ t → t ≤ tb.endTime →
      ∃ first last ls l w, f.Leads a.defaultLabel (fun id => (m id).1) a.layout { first := 0, last := (f.n : Int) - 1 } t first last ls ∧ l ∈ ls ∧
        f.unitStart first ≤ t ∧ t ≤ f.unitEnd last ∧
        tb.getWorkshift t sch = .ok w ∧ w.startTime tb = .ok (f.unitStart first) ∧ w.endTime tb = .ok (f.unitEnd last) ∧
        w.duration tb = .ok (last - first + 1) ∧ w.label = f.amendedShift a.amendments first last l := by
  obtain ⟨f, ps, m', qs, hf, hr, hq, _, hcons⟩ := Timeboard.read_of_new hm h
  have hn : 0 < f.n := Frame.new_valid hf
  obtain ⟨_, hre⟩ := Layout.read_reached a.defaultLabel a.layout { first := 0, last := (f.n : Int) - 1 }
    ⟨Int.le_refl _, by simp only; omega, by simp only; omega⟩ m ps m' hr
  refine ⟨f, hf, fun t sch t1 t2 => ?_⟩
  have hv := (Timeboard.Reachable.new h).valid
  obtain ⟨n, hn0, hnl, hpos⟩ : ∃ n : Int, 0 ≤ n ∧ n < tb.timeline.len ∧ tb.timeline.wsPosition t = .ok n := by
    rcases hv.locate_none t with ⟨n, hn, _⟩ | ⟨h3, _⟩ | ⟨h3, _⟩
    · obtain ⟨n0, n1, _, _⟩ := (hv.wf.wsPosition_ok_iff t n).1 hn
      exact ⟨n, n0, n1, hn⟩
    · omega
    · omega
  obtain ⟨_, _, n2, n3⟩ := (hv.wf.wsPosition_ok_iff t n).1 hpos
  obtain ⟨w, w1, _, _, w2, w3, w4, _, w5⟩ := Workshift.exists_of_range hv sch hn0 hnl
  obtain ⟨v, u1, _, _, u2, u3, u4, _, u5⟩ := Workshift.exists_of_range hv none hn0 hnl
  obtain ⟨_, c2, c3⟩ := hcons
  unfold amendPieces at hq
  split at hq
  · cases hq
  · simp only [Except.ok.injEq] at hq
    have hlen : qs.length = ps.length := by rw [← hq, List.length_map]
    obtain ⟨k, rfl⟩ := Int.eq_ofNat_of_zero_le hn0
    have hkp : k < ps.length := by omega
    obtain ⟨q, hkq⟩ : ∃ q, ps[k]? = some q := ⟨_, List.getElem?_eq_getElem hkp⟩
    have hkq' : qs[k]? = some { q with label := (((q.hits f a.amendments).head?).map Prod.snd).getD q.label } := by
      rw [← hq, List.getElem?_map, hkq]; rfl
    obtain ⟨v', v1, v2, v3, v4, v5⟩ := c3 k _ hkq'
    cases Workshift.ext_new v1 u1
    obtain ⟨q1, q2, q3, ls, q4, q5⟩ := hre q (List.mem_of_getElem? hkq)
    rw [u3] at v2
    rw [u4] at v3
    rw [u5] at v4
    have x1 := v2
    have x2 := v3
    simp only [Except.ok.injEq] at x1 x2
    rw [u2] at w2
    simp only [Except.ok.injEq] at w2
    refine ⟨q.first, q.last, ls, q.label, w, q5 t (by omega) (by omega), q4, by omega, by omega, ?_, by rw [w3, v2], by rw [w4, v3], by rw [w5, v4], ?_⟩
    · rw [hv.getWorkshift_of_within hpos]; exact w1
    · rw [← w2, v5]; rfl

/-- **C129**, a workshift does not cross the border of a span of any organizer on the way to it. -/
theorem C129_borders {a : Args L} {heap heap' : Heap L} {m : Memory L} (hm : heap.Shows m) {tb : Timeboard L}
    (h : Timeboard.new a heap = .ok (tb, heap')) {f : Frame} (hf : Frame.new a.freq a.start a.stop = .ok f) {t : Time} {y : Span}
    (t1 : tb.startTime ≤ t) (t2 : t ≤ tb.endTime) (hy : f.Passes a.layout { first := 0, last := (f.n : Int) - 1 } t y) :
    ∃ w b e, tb.getWorkshift t = .ok w ∧ w.startTime tb = .ok b ∧ w.endTime tb = .ok e ∧ f.unitStart y.first ≤ b ∧ b ≤ t ∧ t ≤ e ∧ e ≤ f.unitEnd y.last := by
  have hn : 0 < f.n := Frame.new_valid hf
  obtain ⟨f', hf', k⟩ := C129_inwards hm h
  rw [hf] at hf'
  cases hf'
  obtain ⟨b1, b2⟩ := Timeboard.new_ends h hf
  obtain ⟨p, q, ls, l, w, c1, _, c3, c4, c5, c6, c7, _⟩ := k t none t1 t2
  obtain ⟨r1, r2⟩ := hy.holds c1 ⟨Int.le_refl _, by simp only; omega, by simp only; omega⟩ (by simp only; omega) (by simp only; omega)
  refine ⟨w, _, _, c5, c6, c7, Frame.unitStart_monotone r1, c3, c4, ?_⟩
  have := Frame.unitStart_monotone (f := f) (show q + 1 ≤ y.last + 1 by omega)
  rw [Frame.unitEnd_eq, Frame.unitEnd_eq]
  omega

/-- **C129**, there is only one way inwards. -/
theorem C129_one {f : Frame} {dl : L} {rp : Nat → List L} {l : Layout L} {t : Time} {a b a' b' : Int} {ls ls' : List L} (hn : 0 < f.n)
    (h : f.Leads dl rp l { first := 0, last := (f.n : Int) - 1 } t a b ls) (h' : f.Leads dl rp l { first := 0, last := (f.n : Int) - 1 } t a' b' ls') :
    a = a' ∧ b = b' ∧ ls = ls' :=
  Frame.leads_unique h ⟨Int.le_refl _, by simp only; omega, by simp only; omega⟩ h'

theorem Layout.plain_of_mem : ∀ {ls : List (Layout L)}, Layout.plainAll ls = true → ∀ l ∈ ls, l.plain = true
  | [], _, _, h => nomatch h
  | e :: es, hp, l, h => by
    unfold Layout.plainAll at hp
    rw [Bool.and_eq_true] at hp
    rcases List.mem_cons.1 h with h | h
    · rw [h]; exact hp.1
    · exact Layout.plain_of_mem hp.2 l h

/-- **C129**, without RememberingPatterns the label is determined. -/
theorem C129_label {f : Frame} {dl : L} {rp : Nat → List L} {l : Layout L} {s : Span} {t : Time} {a b : Int} {ls : List L}
    (h : f.Leads dl rp l s t a b ls) (hl : l.plain = true) : ∃ x, ls = [x] := by
  induction h with
  | label => exact ⟨_, rfl⟩
  | unit _ _ => exact ⟨_, rfl⟩
  | unlabelled _ => exact ⟨_, rfl⟩
  | remembering _ _ => simp [Layout.plain] at hl
  | rememberingNone _ _ => exact ⟨_, rfl⟩
  | part _ _ _ _ he _ ih => unfold Layout.plain at hl; exact ih (Layout.plain_of_mem hl _ (mem_of_cyclic he))
  | bare _ => exact ⟨_, rfl⟩
  | shift _ _ _ _ _ => simp [Layout.plain] at hl
  | shiftNone _ _ => exact ⟨_, rfl⟩

theorem Frame.Leads.into {f : Frame} {dl : L} {rp : Nat → List L} {cut : Cut} {elems : List (Layout L)} {s : Span} (hs : s.Within f.n) {t : Time} {a b : Int}
    {ls : List L} (h : f.Leads dl rp (.organizer cut elems) s t a b ls) {ss : List Span} (hcut : f.cut s cut = .ok ss) {k : Nat} {x : Span}
    (hx : ss[k]? = some x) (h1 : f.unitStart x.first ≤ t) (h2 : t ≤ f.unitEnd x.last) {e : Layout L} (he : cyclic elems k = some e) :
    f.Leads dl rp e x t a b ls := by
  cases h with
  | part hcut' hx' h1' h2' he' hp' =>
    rw [hcut] at hcut'
    cases hcut'
    obtain ⟨rfl, rfl⟩ := Frame.part_unique hs hcut hx h1 h2 hx' h1' h2'
    rw [he] at he'
    cases he'
    exact hp'
  | bare hi => simp [cyclic] at he

/-- **C129**, a change of one element of a structure makes no difference in the spans of the other elements: the workshifts there are the same, and
so are their labels unless they come from RememberingPatterns. -/
theorem C129_other_elements {a b : Args L} {heap h1 h2 : Heap L} {m : Memory L} (hm : heap.Shows m) {cut : Cut} {elems elems' : List (Layout L)}
    (ha : a.layout = .organizer cut elems) (hb : b = { a with layout := .organizer cut elems' }) {ta tb : Timeboard L}
    (hta : Timeboard.new a heap = .ok (ta, h1)) (htb : Timeboard.new b heap = .ok (tb, h2)) {f : Frame} (hf : Frame.new a.freq a.start a.stop = .ok f)
    {ss : List Span} (hcut : f.cut { first := 0, last := (f.n : Int) - 1 } cut = .ok ss) {k : Nat} {x : Span} (hx : ss[k]? = some x)
    {e : Layout L} (he : cyclic elems k = some e) (he' : cyclic elems' k = some e) {t : Time} (t1 : f.unitStart x.first ≤ t) (t2 : t ≤ f.unitEnd x.last) :
    ∃ w w', ta.getWorkshift t = .ok w ∧ tb.getWorkshift t = .ok w' ∧ w.startTime ta = w'.startTime tb ∧ w.endTime ta = w'.endTime tb ∧
      w.duration ta = w'.duration tb ∧ (e.plain = true → w.label = w'.label) := by
  subst hb
  have hn : 0 < f.n := Frame.new_valid hf
  have hs : ({ first := 0, last := (f.n : Int) - 1 } : Span).Within f.n := ⟨Int.le_refl _, by simp only; omega, by simp only; omega⟩
  obtain ⟨ht, hin⟩ := Frame.cut_within hs hcut
  have hxw := hin x (List.mem_of_getElem? hx)
  have r1 := Frame.unitStart_monotone (f := f) hxw.1
  have r2 := Frame.unitStart_monotone (f := f) (show x.last + 1 ≤ (f.n : Int) - 1 + 1 by have := hxw.2.2; omega)
  have r3 : t ≤ f.unitEnd ((f.n : Int) - 1) := by rw [Frame.unitEnd_eq] at t2 ⊢; omega
  obtain ⟨a1, a2⟩ := Timeboard.new_ends hta hf
  obtain ⟨b1, b2⟩ := Timeboard.new_ends htb hf
  obtain ⟨f', hf', ka⟩ := C129_inwards hm hta
  rw [hf] at hf'
  cases hf'
  obtain ⟨f', hf', kb⟩ := C129_inwards hm htb
  have hf'' := hf.symm.trans hf'
  cases hf''
  obtain ⟨p, q, ls, l, w, c1, c2, _, _, c3, c4, c5, c6, c7⟩ := ka t none (by omega) (by omega)
  obtain ⟨p', q', ls', l', w', d1, d2, _, _, d3, d4, d5, d6, d7⟩ := kb t none (by omega) (by omega)
  rw [ha] at c1
  have c1 := c1.into hs hcut hx t1 t2 he
  have d1 := Frame.Leads.into hs d1 hcut hx t1 t2 he'
  obtain ⟨rfl, rfl, rfl⟩ := Frame.leads_unique c1 hxw d1
  refine ⟨w, w', c3, d3, by rw [c4, d4], by rw [c5, d5], by rw [c6, d6], fun hp => ?_⟩
  obtain ⟨y, rfl⟩ := C129_label c1 hp
  rw [List.mem_singleton] at c2 d2
  rw [c7, d7, c2, d2]

/-- Shifts, days and a RememberingPattern. -/
def mixedArgs (l : Int) : Args Int where
  freq := fD
  start := date 2017 1 25
  stop := date 2017 2 22
  layout := .organizer (.marker ⟨fM, []⟩) [.label l,
    .organizer (.marks [date 2017 2 9, date 2017 2 16]) [.organizer (.marker ⟨fW, []⟩) [.label 1, .label 2], .pattern (.rp 0), .pattern (.list [5, 6])]]
  selector := fun l => decide (l > 1)
  defaultLabel := 0
  amendments := [(date 2017 2 8, 50)]

def mixedHeap : Heap Int := fun _ => Cycle.start [7, 8, 9]

-- workshifts with their numbers of base units (28 days and 7 of January), and labels
example : (Timeboard.new (mixedArgs 3) mixedHeap).map (fun r => (r.1.timeline.wsIdx, r.1.timeline.labels)) =
    .ok ([0, 7, 12, 15, 16, 17, 18, 19, 20, 21, 22, 23, 24, 25, 26, 27, 28], [3, 1, 50, 7, 8, 9, 7, 8, 9, 7, 5, 6, 5, 6, 5, 6, 5]) := by decide +kernel

-- the way inwards at noon of 7 February 2017: the month number 1, in it the part number 0, in this the week number 1, which is cut off on 9 February
example : ({ freq := fD, o0 := dayOf (date 2017 1 25), n := 29 } : Frame).Leads 0 (fun _ => [7, 8, 9]) (mixedArgs 3).layout { first := 0, last := 28 }
    (date 2017 2 7 + 12 * 3600 * nsSec) 12 14 [2] :=
  .part (ss := [⟨0, 6, 24, 0⟩, ⟨7, 28, 0, 6⟩]) (k := 1) (x := ⟨7, 28, 0, 6⟩) (by decide +kernel) rfl (by decide +kernel) (by decide +kernel) rfl
    (.part (ss := [⟨7, 14, 0, 0⟩, ⟨15, 21, 0, 0⟩, ⟨22, 28, 0, 0⟩]) (k := 0) (x := ⟨7, 14, 0, 0⟩) (by decide +kernel) rfl (by decide +kernel) (by decide +kernel) rfl
      (.part (ss := [⟨7, 11, 2, 0⟩, ⟨12, 14, 0, 4⟩]) (k := 1) (x := ⟨12, 14, 0, 4⟩) (by decide +kernel) rfl (by decide +kernel) (by decide +kernel) rfl .label))

-- on this way one meets February, and its part up to the mark of 9 February
example : ({ freq := fD, o0 := dayOf (date 2017 1 25), n := 29 } : Frame).Passes (mixedArgs 3).layout { first := 0, last := 28 }
    (date 2017 2 7 + 12 * 3600 * nsSec) ⟨7, 14, 0, 0⟩ :=
  .part (ss := [⟨0, 6, 24, 0⟩, ⟨7, 28, 0, 6⟩]) (k := 1) (x := ⟨7, 28, 0, 6⟩) (by decide +kernel) rfl (by decide +kernel) (by decide +kernel) rfl
    (.part (ss := [⟨7, 14, 0, 0⟩, ⟨15, 21, 0, 0⟩, ⟨22, 28, 0, 0⟩]) (k := 0) (x := ⟨7, 14, 0, 0⟩) (by decide +kernel) rfl (by decide +kernel) (by decide +kernel) rfl .here)

end TB
