import Verif.Spec.Written
import Verif.Props.Partition
import Verif.Props.Tiling
import Verif.Lemmas.Nested
import Verif.Lemmas.Anchor
import Verif.Lemmas.SameTimes2
/-! Property C125: every timeboard can be written down as a table and made from it again. -/
namespace TB
open TB.Ex
variable {L : Type}

theorem frame_again {freq : Freq} {a b : Time} {f : Frame} (h : Frame.new freq a b = .ok f) : Frame.new freq f.startTime f.endTime = .ok f := by
  have hn := Frame.new_valid h
  unfold Frame.Valid at hn
  obtain ⟨h1, h2⟩ := Frame.new_ok_iff.1 h
  have hm := freq.mult_pos
  have hfr : f.freq = freq := by rw [h2]
  have e1 : freq.base.ordOf f.startTime = f.o0 := by
    unfold Frame.startTime Frame.unitStart Frame.ord
    rw [hfr, Base.ordOf_startOf]
    omega
  have e2 : freq.base.ordOf f.endTime = f.o0 + (freq.mult * ((f.n : Int) - 1) + (freq.mult - 1)) := by
    rw [Base.ordOf_eq_iff]
    unfold Frame.endTime Frame.unitEnd Frame.ord
    rw [hfr]
    have hs := freq.base.startOf_step (f.o0 + (freq.mult * ((f.n : Int) - 1) + (freq.mult - 1)))
    have := nsSec_pos
    have e : f.o0 + (freq.mult * ((f.n : Int) - 1) + (freq.mult - 1)) + 1 = f.o0 + freq.mult * ((f.n : Int) - 1) + freq.mult := by omega
    rw [e] at hs ⊢
    omega
  have hpos : 0 ≤ (freq.mult : Int) * ((f.n : Int) - 1) := Int.mul_nonneg (by omega) (by omega)
  rw [Frame.new_ok_iff, e1, e2]
  refine ⟨by omega, ?_⟩
  have e3 : (f.o0 + ((freq.mult : Int) * ((f.n : Int) - 1) + (freq.mult - 1)) - f.o0) / freq.mult = (f.n : Int) - 1 := by
    rw [show f.o0 + ((freq.mult : Int) * ((f.n : Int) - 1) + (freq.mult - 1)) - f.o0 = (freq.mult - 1) + (freq.mult : Int) * ((f.n : Int) - 1) by omega,
      Int.add_mul_ediv_left _ _ (by omega), Int.ediv_eq_zero_of_lt (by omega) (by omega)]
    omega
  rw [e3, show ((f.n : Int) - 1 + 1).toNat = f.n by omega]
  cases f
  simp only at hfr ⊢
  rw [hfr]

/-- Two timelines with the same workshifts are the same. -/
theorem Timeline.WF.same {t u : Timeline L} (ht : t.WF) (hu : u.WF) (hf : t.frame = u.frame) (hi : t.wsIdx = u.wsIdx) (hl : t.labels = u.labels)
    (hr : t.refEnd = u.refEnd) : t = u := by
  have hb : t.frameband = u.frameband := by
    apply List.ext_getElem (by rw [ht.fb_len, hu.fb_len, hf])
    intro i h1 h2
    obtain ⟨a1, a2, a3⟩ := ht.fb i h1
    obtain ⟨b1, b2, b3⟩ := hu.fb i h2
    rw [← hi] at b1 b3
    have := a3 _ b1 b2
    have := b3 _ a1 a2
    omega
  cases t; cases u
  simp only at hf hi hl hr hb
  subst hf; subst hi; subst hl; subst hr; subst hb
  rfl

/-- **C125.** The timeboard made of the table of another one is that timeboard: the marks may be given in any order, repeated, with or
without the start of the first workshift and with any marks before it. -/
theorem C125_written {a : Args L} {heap heap' : Heap L} {tb : Timeboard L} (h : Timeboard.new a heap = .ok (tb, heap')) {rows : List (Time × L)}
    (hr : tb.Table rows) {marks : List Time} (hm : ∀ t, tb.startTime < t → (t ∈ marks ↔ ∃ l, (t, l) ∈ rows)) (anything : L) (other : Heap L) :
    Timeboard.new (a.written tb marks rows anything) other = .ok (tb, other) := by
  have hre : tb.Reachable := .new h
  have hvd := hre.valid
  obtain ⟨org, f, tl0, tl, h1, h2, h3, h4, h5, htb⟩ := Timeboard.new_ok_iff.1 h
  have hwf := hvd.wf
  have hfr : tb.timeline.frame = f := by
    rw [htb]
    exact (Timeline.amend_frame h5).1.trans (Timeline.new_wf (Frame.new_valid h3) h4).2.1
  have hn := hwf.npos
  rw [hfr] at hn
  obtain ⟨hlen, hrow⟩ := hr
  have hll := hwf.labels_len
  have hlen' : rows.length = tb.timeline.wsIdx.length := by unfold Timeline.len at hlen; omega
  -- the rows are the starts and labels of the timeline
  have hget : ∀ k (hk : k < rows.length), rows[k].1 = f.unitStart (tb.timeline.wsIdx[k]'(by omega)) ∧ rows[k].2 = tb.timeline.labels[k]'(by omega) := by
    intro k hk
    obtain ⟨w, w1, w2, w3⟩ := hrow k _ (List.getElem?_eq_getElem hk)
    obtain ⟨w', g1, _, _, g4, g5, _⟩ := Workshift.exists_of_range hvd none (k := (k : Int)) (by omega) (by omega)
    rw [w1] at g1; cases g1
    rw [w2] at g5
    obtain ⟨_, hb⟩ := tb.timeline.bnd_lt (k := (k : Int)) (by omega) (by omega)
    obtain ⟨_, hl⟩ := hwf.label_eq (k := (k : Int)) (by omega) (by omega)
    rw [hl] at g4
    have e1 := Except.ok.inj g5
    have e2 := Except.ok.inj g4
    constructor
    · rw [e1, hb, hfr]; rfl
    · rw [← w3, ← e2]; rfl
  have hmem : ∀ i, 0 < i → i < (f.n : Int) → (i ∈ tb.timeline.wsIdx ↔ f.unitStart i ∈ marks) := by
    intro i i0 i1
    have hlt : tb.startTime < f.unitStart i := by
      unfold Timeboard.startTime Frame.startTime
      rw [hfr]
      exact Frame.unitStart_lt_iff.2 i0
    rw [hm _ hlt]
    constructor
    · intro hi
      obtain ⟨k, hk, e⟩ := List.mem_iff_getElem.1 hi
      refine ⟨rows[k].2, ?_⟩
      have : rows[k] = (f.unitStart i, rows[k].2) := by
        rw [← e, ← (hget k (by omega)).1]
      rw [← this]
      exact List.getElem_mem _
    · rintro ⟨l, hl⟩
      obtain ⟨k, hk, e⟩ := List.mem_iff_getElem.1 hl
      have := (hget k hk).1
      rw [e] at this
      rw [Frame.unitStart_inj this]
      exact List.getElem_mem _
  have hin : ∀ i, 0 < i → i < (f.n : Int) → ∀ t ∈ marks, f.unitStart i ≤ t → t ≤ f.unitEnd i → i ∈ tb.timeline.wsIdx := by
    intro i i0 i1 t ht t1 t2
    have hlt : tb.startTime < t := by
      have := Frame.unitStart_lt (f := f) i0
      unfold Timeboard.startTime Frame.startTime
      rw [hfr]
      omega
    obtain ⟨l, hl⟩ := (hm t hlt).1 ht
    obtain ⟨k, hk, e⟩ := List.mem_iff_getElem.1 hl
    have e1 := (hget k hk).1
    rw [e] at e1
    simp only at e1
    rw [Frame.unitEnd_eq] at t2
    have a1 := Frame.unitStart_le_iff (f := f) (i := i) (j := tb.timeline.wsIdx[k]'(by omega))
    have a2 := Frame.unitStart_le_iff (f := f) (i := i + 1) (j := tb.timeline.wsIdx[k]'(by omega))
    have : i = tb.timeline.wsIdx[k]'(by omega) := by omega
    rw [this]
    exact List.getElem_mem _
  have hne : rows.map Prod.snd ≠ [] := by
    intro he
    have h0 := hwf.zero_mem
    have : rows.length = 0 := by simpa using congrArg List.length he
    have hz : tb.timeline.wsIdx = [] := List.eq_nil_of_length_eq_zero (by omega)
    rw [hz] at h0
    cases h0
  -- the spans of the marks
  obtain ⟨ss, c1, c2, _, c4, c5⟩ := C04_spans_at_marks_partial f { first := 0, last := (f.n : Int) - 1 } marks (by simp) (by simp only; omega) (by simp only; omega)
  simp only at c2 c4 c5
  have hfirst : ss.map Span.first = tb.timeline.wsIdx := by
    apply pairwise_lt_ext c2.pairwise_first hwf.sorted
    intro i
    rw [List.mem_map]
    constructor
    · rintro ⟨x, hx, rfl⟩
      have hxm := c2.mem hx
      rcases Int.lt_or_eq_of_le hxm.1 with g | g
      · rcases Int.lt_or_le x.first ((f.n : Int) - 1) with g' | g'
        · obtain ⟨t, t1, t2, t3⟩ := (c4 x.first g (by omega) g').1 ⟨x, hx, rfl⟩
          exact hin x.first g (by omega) t t1 t2 t3
        · obtain ⟨t, t1, t2, t3⟩ := (c5 x.first g (by omega) (by omega)).1 ⟨x, hx, rfl⟩
          refine hin x.first g (by omega) t t1 t2 ?_
          rw [Frame.unitEnd_eq]
          have := f.unitStart_add_sec x.first
          omega
      · rw [← g]; exact hwf.zero_mem
    · intro hi
      have hri := hwf.range i hi
      rw [hfr] at hri
      rcases Int.lt_or_eq_of_le hri.1 with g | g
      · have hmk := (hmem i g hri.2).1 hi
        rcases Int.lt_or_le i ((f.n : Int) - 1) with g' | g'
        · exact (c4 i g (by omega) g').2 ⟨_, hmk, by omega, f.unitStart_le_unitEnd i⟩
        · exact (c5 i g (by omega) (by omega)).2 ⟨_, hmk, by omega, by have := nsSec_pos; omega⟩
      · obtain ⟨k, x, hk, hx1, hx2⟩ := c2.cover (i := 0) (by omega) (by omega)
        have := c2.mem (List.mem_of_getElem? hk)
        exact ⟨x, List.mem_of_getElem? hk, by omega⟩
  have hf' : Frame.new (a.written tb marks rows anything).freq (a.written tb marks rows anything).start (a.written tb marks rows anything).stop = .ok f := by
    show Frame.new a.freq tb.startTime tb.endTime = .ok f
    unfold Timeboard.startTime Timeboard.endTime
    rw [hfr]
    exact frame_again h3
  obtain ⟨tb', n1, n2, n3⟩ := Timeboard.labels_organizer (a := a.written tb marks rows anything) (ls := rows.map Prod.snd) (cut := .marks marks) (heap := other)
    rfl (by unfold Args.written; simp [Function.comp_def]) hne h2 hf' c1
  have hvd' := (Timeboard.Reachable.new n1).valid
  have hwf' := hvd'.wf
  have hll' := hwf'.labels_len
  have hst : ∀ k (hk : k < tb'.timeline.wsIdx.length), ∃ (j : Nat) (x : Span), ss[j]? = some x ∧ x.first = tb'.timeline.wsIdx[k] ∧
      cyclic (rows.map Prod.snd) j = some (tb'.timeline.labels[k]'(by omega)) := by
    intro k hk
    have hk' : (k : Int) < tb'.timeline.len := by unfold Timeline.len; omega
    obtain ⟨_, hb⟩ := tb'.timeline.bnd_lt (k := (k : Int)) (by omega) hk'
    obtain ⟨_, hl⟩ := hwf'.label_eq (k := (k : Int)) (by omega) hk'
    obtain ⟨d, hd⟩ := hvd'.starts_at (by omega) hk' hl
    obtain ⟨j, x, x1, x2, _, x4⟩ := (n3 _ _ _).1 hd
    refine ⟨j, x, x1, ?_, x4⟩
    rw [n2, hb] at x2
    exact (Frame.unitStart_inj x2).symm
  have hidx : tb'.timeline.wsIdx = tb.timeline.wsIdx := by
    rw [← hfirst]
    apply pairwise_lt_ext hwf'.sorted c2.pairwise_first
    intro i
    constructor
    · intro hi
      obtain ⟨k, hk, e⟩ := List.mem_iff_getElem.1 hi
      obtain ⟨j, x, x1, x2, _⟩ := hst k hk
      exact List.mem_map.2 ⟨x, List.mem_of_getElem? x1, by rw [x2, e]⟩
    · intro hi
      obtain ⟨x, hx, rfl⟩ := List.mem_map.1 hi
      obtain ⟨j, hj⟩ := List.getElem?_of_mem hx
      obtain ⟨l, hl⟩ := cyclic_some hne j
      obtain ⟨k, k0, k1, k2, _⟩ := hvd'.of_starts ((n3 _ _ _).2 ⟨j, x, hj, rfl, rfl, hl⟩)
      obtain ⟨_, hb⟩ := tb'.timeline.bnd_lt k0 k1
      rw [n2, hb] at k2
      rw [Frame.unitStart_inj k2]
      exact List.getElem_mem _
  have hlab : tb'.timeline.labels = tb.timeline.labels := by
    apply List.ext_getElem (by rw [hll, hll', hidx])
    intro k k1 k2
    have hk : k < tb'.timeline.wsIdx.length := by omega
    obtain ⟨j, x, x1, x2, x3⟩ := hst k hk
    have hj : (ss.map Span.first)[j]? = some x.first := by rw [List.getElem?_map, x1]; rfl
    rw [hfirst] at hj
    have hjk : j = k := by
      obtain ⟨j1, j2⟩ := List.getElem?_eq_some_iff.1 hj
      have e : tb'.timeline.wsIdx[k] = tb.timeline.wsIdx[k]'(by omega) := by simp only [hidx]
      rw [x2, e] at j2
      have hp := List.pairwise_iff_getElem.1 hwf.sorted
      rcases Nat.lt_trichotomy j k with g | g | g
      · have := hp j k j1 (by omega) g; omega
      · exact g
      · have := hp k j (by omega) j1 g; omega
    subst hjk
    unfold cyclic at x3
    rw [Nat.mod_eq_of_lt (by rw [List.length_map]; omega), List.getElem?_map, List.getElem?_eq_getElem (by omega)] at x3
    have := (hget j (by omega)).2
    simp only [Option.map_some, Option.some.injEq] at x3
    rw [← x3, this]
  have htl : tb'.timeline = tb.timeline := hwf'.same hwf (by rw [n2, hfr]) hidx hlab (by
    rw [Timeboard.refEnd_eq n1, Timeboard.refEnd_eq h]; rfl)
  have e : tb' = tb := by
    obtain ⟨org', f', tl0', tl', _, _, _, _, _, htb'⟩ := Timeboard.new_ok_iff.1 n1
    have h6 : tl' = tl := by rw [htb', htb] at htl; exact htl
    rw [htb', htb, h6]
    rfl
  rw [n1, e]

theorem Timeboard.table_rows {tb : Timeboard L} (h : tb.Reachable) :
    tb.Table ((tb.timeline.wsIdx.map tb.timeline.frame.unitStart).zip tb.timeline.labels) := by
  have hvd := h.valid
  have hwf := hvd.wf
  have hll := hwf.labels_len
  refine ⟨?_, ?_⟩
  · rw [List.length_zip, List.length_map]
    unfold Timeline.len
    omega
  · intro k r hk
    obtain ⟨hk1, e⟩ := List.getElem?_eq_some_iff.1 hk
    rw [List.length_zip, List.length_map] at hk1
    have hk' : (k : Int) < tb.timeline.len := by unfold Timeline.len; omega
    obtain ⟨w, g1, _, _, g4, g5, _⟩ := Workshift.exists_of_range hvd none (k := (k : Int)) (by omega) hk'
    obtain ⟨_, hb⟩ := tb.timeline.bnd_lt (k := (k : Int)) (by omega) hk'
    obtain ⟨_, hl⟩ := hwf.label_eq (k := (k : Int)) (by omega) hk'
    refine ⟨w, g1, ?_, ?_⟩
    · rw [g5, hb, ← e]; simp
    · rw [hl] at g4
      rw [← Except.ok.inj g4, ← e]; simp

/-- **C125**, there is always a table, and only one. -/
theorem C125_table {tb : Timeboard L} (h : tb.Reachable) : ∃ rows, tb.Table rows ∧ ∀ rows', tb.Table rows' → rows' = rows := by
  have ht := Timeboard.table_rows h
  refine ⟨_, ht, ?_⟩
  generalize (tb.timeline.wsIdx.map tb.timeline.frame.unitStart).zip tb.timeline.labels = rows at ht
  intro rows' ht'
  apply List.ext_getElem (by have := ht.1; have := ht'.1; omega)
  intro k k1 k2
  obtain ⟨w, w1, w2, w3⟩ := ht'.2 k _ (List.getElem?_eq_getElem k1)
  obtain ⟨v, v1, v2, v3⟩ := ht.2 k _ (List.getElem?_eq_getElem k2)
  rw [w1] at v1; cases v1
  rw [w2] at v2
  exact Prod.ext (Except.ok.inj v2) (w3.symm.trans v3)

/-- **C125**, two timeboards with the same table: if they are made with the same base unit, the same default schedule and the same source of
worktime, refer to workshifts in the same way and end at the same moment, they are the same timeboard, whatever the layouts and the amendments. -/
theorem C125_same_table {a b : Args L} {heap heap' other other' : Heap L} {tb tb' : Timeboard L} (h : Timeboard.new a heap = .ok (tb, heap'))
    (h' : Timeboard.new b other = .ok (tb', other')) {rows : List (Time × L)} (hr : tb.Table rows) (hr' : tb'.Table rows)
    (h1 : a.freq = b.freq) (h2 : a.refEnd = b.refEnd) (h3 : a.defaultName = b.defaultName) (h4 : a.selector = b.selector)
    (h5 : a.worktimeSource = b.worktimeSource) (he : tb.endTime = tb'.endTime) : tb = tb' := by
  have hs : tb.startTime = tb'.startTime := by
    have key : ∀ {tb : Timeboard L}, tb.Reachable → tb.Table rows → ∃ r, rows[0]? = some r ∧ tb.startTime = r.1 := by
      intro tb hre ht
      have hwf := hre.valid.wf
      obtain ⟨t1, t2⟩ := ht
      have hz := hwf.zero_mem
      have hpos : 0 < tb.timeline.wsIdx.length := List.length_pos_of_mem hz
      have hlen : 0 < rows.length := by unfold Timeline.len at t1; omega
      refine ⟨rows[0], List.getElem?_eq_getElem hlen, ?_⟩
      obtain ⟨w, w1, w2, _⟩ := t2 0 _ (List.getElem?_eq_getElem hlen)
      obtain ⟨w', g1, _, _, _, g5, _⟩ := Workshift.exists_of_range hre.valid none (k := ((0 : Nat) : Int)) (by omega) (by omega)
      rw [w1] at g1; cases g1
      rw [w2] at g5
      rw [Except.ok.inj g5]
      obtain ⟨_, hb⟩ := tb.timeline.bnd_lt (k := ((0 : Nat) : Int)) (by omega) (by omega)
      have h0 : tb.timeline.wsIdx[0]'hpos = 0 := by
        obtain ⟨k, hk, e⟩ := List.mem_iff_getElem.1 hz
        have hr0 := hwf.range _ (List.getElem_mem hpos)
        rcases Nat.eq_zero_or_pos k with g | g
        · subst g; exact e
        · have := List.pairwise_iff_getElem.1 hwf.sorted 0 k hpos hk g
          omega
      rw [hb]
      unfold Timeboard.startTime Frame.startTime
      congr 1
      exact h0.symm
    obtain ⟨r, r1, r2⟩ := key (.new h) hr
    obtain ⟨r', r1', r2'⟩ := key (.new h') hr'
    rw [r1] at r1'; cases r1'
    rw [r2, r2']
  have e1 := C125_written h hr (marks := rows.map Prod.fst) (by intro t _; simp) a.defaultLabel other
  have e2 := C125_written h' hr' (marks := rows.map Prod.fst) (by intro t _; simp) a.defaultLabel other
  unfold Args.written at e1 e2
  rw [h1, h2, h3, h4, h5, hs, he] at e1
  rw [e2] at e1
  injection e1 with e1
  injection e1 with e1
  exact e1.symm

/-- The table of the weeks of January 2017. -/
def weekTable : List (Time × Int) := (week.timeline.wsIdx.map week.timeline.frame.unitStart).zip week.timeline.labels

example : weekTable.length = 31 ∧ weekTable[1]? = some (date 2017 1 2, 0) ∧ weekTable[7]? = some (date 2017 1 8, 7) := by decide +kernel

/-- January 2017 made anew from the starts and labels of its days; the marks are given backwards and together with a mark of 2016. -/
example : Timeboard.new (weekArgs.written week (weekTable.map Prod.fst ++ [date 2016 5 5]).reverse weekTable 77) heap0 = .ok (week, heap0) := by
  obtain ⟨heap', h⟩ := board_ok weekArgs (by decide +kernel)
  refine C125_written h (Timeboard.table_rows week_reachable) ?_ 77 heap0
  intro t ht
  have hs : week.startTime = date 2017 1 1 := by decide +kernel
  have hd : ¬ t = date 2016 5 5 := by
    rintro rfl
    rw [show (board weekArgs (by decide +kernel)).startTime = date 2017 1 1 from hs] at ht
    revert ht
    decide +kernel
  unfold weekTable week
  simp [hd]

/-- A board of the same days written by hand has other workshifts if one label is another one. -/
example : Timeboard.new (weekArgs.written week (weekTable.map Prod.fst) (weekTable.map fun r => (r.1, if r.2 = 7 then 8 else r.2)) 77) heap0 ≠ .ok (week, heap0) := by
  intro h
  have e : (match Timeboard.new (weekArgs.written week (weekTable.map Prod.fst) (weekTable.map fun r => (r.1, if r.2 = 7 then 8 else r.2)) 77) heap0 with
    | .ok r => r.1.timeline.labels
    | .error _ => []) = week.timeline.labels := by rw [h]
  revert e
  decide +kernel

end TB
