import Verif.Lemmas.Layout4
import Verif.Examples.Boards
/-! Properties C06–C11, C46: what layouts do. -/
namespace TB
open TB.Ex
variable {L : Type}

/-! ### C06 -/

/-- **C06.** -/
theorem C06_pattern {a : Args L} {heap : Heap L} {xs : List L} {f : Frame}
    (ha : a.amendments = []) (hlay : a.layout = .pattern (.list xs)) (hx : xs ≠ [])
    (hw : a.worktimeSource ∈ ["duration", "labels"]) (hf : Frame.new a.freq a.start a.stop = .ok f) :
    ∃ tb, Timeboard.new a heap = .ok (tb, heap) ∧ tb.timeline.frame = f ∧
      ∀ (i : Nat), i < f.n → ∃ l, tb.Starts (f.unitStart i) 1 l ∧ cyclic xs i = some l := by
  have hn := Frame.new_valid hf
  unfold Frame.Valid at hn
  have hc : f.cutSpan (.marks []) { first := 0, last := (f.n : Int) - 1 } = .ok [{ first := 0, last := (f.n : Int) - 1 }] := by
    obtain ⟨ss, h1⟩ := Frame.createSubspans_exists (f := f) (s := { first := 0, last := (f.n : Int) - 1 }) [] (by simp) (by simp only; omega) (by simp only; omega)
    have h2 := h1
    rw [Frame.createSubspans_ok_iff] at h2
    obtain ⟨_, _, _, h3⟩ := h2
    simp only [Frame.cutSpan, Frame.partitionAtMarks]
    rw [h1, h3]
    rfl
  obtain ⟨tb, h1, h2, h3⟩ := Timeboard.pattern_organizer (heap := heap) ha (by rw [hlay]; rfl) rfl hx hw hf hc (by simp)
  refine ⟨tb, h1, h2, ?_⟩
  intro i hi
  obtain ⟨l, g1, g2⟩ := h3 _ (List.mem_singleton.2 rfl) (i : Int) (by simp only; omega) (by simp only; omega)
  refine ⟨l, g1, ?_⟩
  simpa using g2

/-- **C06**, on an empty pattern. -/
theorem C06_empty_pattern {a : Args L} {heap : Heap L} {f : Frame}
    (ha : a.amendments = []) (hlay : a.layout = .pattern (.list []))
    (hw : a.worktimeSource ∈ ["duration", "labels"]) (hf : Frame.new a.freq a.start a.stop = .ok f) :
    ∃ tb, Timeboard.new a heap = .ok (tb, heap) ∧ tb.timeline.frame = f ∧
      ∀ (i : Nat), i < f.n → tb.Starts (f.unitStart i) 1 a.defaultLabel := by
  have hn := Frame.new_valid hf
  unfold Frame.Valid at hn
  have horg : makeOrganizer a.layout = .ok (.organizer (.marks []) [.pattern (.list [])]) := by rw [hlay]; rfl
  have hrun : Layout.run f (.organizer (.marks []) [.pattern (.list [])]) { first := 0, last := (f.n : Int) - 1 } (TLState.init a.defaultLabel heap)
      = .ok (TLState.init a.defaultLabel heap) := by
    obtain ⟨ss, h1⟩ := Frame.createSubspans_exists (f := f) (s := { first := 0, last := (f.n : Int) - 1 }) [] (by simp) (by simp only; omega) (by simp only; omega)
    have h2 := h1
    rw [Frame.createSubspans_ok_iff] at h2
    obtain ⟨_, _, _, h3⟩ := h2
    have h4 : ss = [{ first := 0, last := (f.n : Int) - 1 }] := by rw [h3]; rfl
    simp only [Layout.run, Frame.cutSpan, Frame.partitionAtMarks, h1]
    rw [h4]
    simp only [Layout.runAll, zipRun, Cycle.start, Cycle.next, Layout.run]
    rw [applyPattern_nil (by simp) (by simp only; omega)]
  obtain ⟨tb, h1⟩ := Timeboard.new_of_run ha horg hw hf hrun
  obtain ⟨org', f', st, g1, g2, _, g3, g4, _, _, g5⟩ := Timeboard.starts_iff ha h1
  rw [horg] at g1; cases g1
  rw [hf] at g2; cases g2
  rw [hrun] at g4; cases g4
  refine ⟨tb, h1, g3, ?_⟩
  intro i hi
  refine (g5 _ _ _).2 ⟨(i : Int), by omega, by omega, by omega, rfl, rfl, rfl, by intro j; omega, fun _ => rfl⟩

def patArgs (xs : List Int) : Args Int where
  freq := fD
  start := date 2017 1 1
  stop := date 2017 1 8
  layout := .pattern (.list xs)
  selector := fun l => decide (l > 1)
  defaultLabel := 9

example : (Timeboard.new (patArgs [1, 2, 3]) heap0).map (fun r => (r.1.timeline.wsIdx, r.1.timeline.labels)) =
      .ok ([0, 1, 2, 3, 4, 5, 6, 7], [1, 2, 3, 1, 2, 3, 1, 2]) ∧
    (Timeboard.new (patArgs []) heap0).map (fun r => r.1.timeline.labels) = .ok [9, 9, 9, 9, 9, 9, 9, 9] := by decide +kernel

/-! ### C07 -/

/-- **C07.** The label at any time within the timeboard depends on the place of the base unit in its calendar period only. -/
theorem C07_calendar_pattern {a : Args L} {heap : Heap L} {each : Freq} {xs : List L} {f : Frame}
    (ha : a.amendments = []) (hlay : a.layout = .organizer (.marker ⟨each, []⟩) [.pattern (.list xs)]) (hx : xs ≠ [])
    (hw : a.worktimeSource ∈ ["duration", "labels"]) (hf : Frame.new a.freq a.start a.stop = .ok f)
    (hc : checkGroupbyFreq a.freq each = true) (hbu : a.freq.mult = 1) (hea : each.mult = 1) :
    ∃ tb, Timeboard.new a heap = .ok (tb, heap) ∧
      ∀ (t : Time) (sch : Option (Schedule L)), tb.startTime ≤ t → t ≤ tb.endTime →
        ∃ w, tb.getWorkshift t sch = .ok w ∧ w.startTime tb = .ok (Period.ofTime a.freq t).startTime ∧ w.duration tb = .ok 1 ∧
          cyclic xs ((Period.ofTime a.freq t).ord - (Period.ofTime a.freq (Period.ofTime each t).startTime).ord).toNat = some w.label := by
  have hn := Frame.new_valid hf
  unfold Frame.Valid at hn
  have hff : f.freq = a.freq := by rw [(Frame.new_ok_iff.1 hf).2]
  rw [← hff] at hc hbu ⊢
  have hal : ∀ o, ∃ o', each.base.startOf o = f.freq.base.startOf o' := by
    rcases checkGroupby_aligned hc with ⟨_, h2⟩ | ⟨h1, h2⟩
    · exact h2
    · intro o; exact ⟨o, by rw [h1]⟩
  obtain ⟨ss, g1, g2, g3, g4⟩ := Frame.partition_calendar (f := f) (s := { first := 0, last := (f.n : Int) - 1 }) hc (by simp) (by simp only; omega) (by simp only; omega)
  have hord : ∀ j, f.ord j = f.ord 0 + j := by intro j; simp [Frame.ord, hbu]
  have hsk : ∀ s ∈ ss, 0 ≤ s.skipLeft := by
    intro s hs
    cases ss with
    | nil => simp at hs
    | cons y r =>
      have hskc : y.skipLeft = _ ∧ ∀ t ∈ r, t.skipLeft = 0 := g3
      rcases List.mem_cons.1 hs with rfl | hs
      · rw [hskc.1]
        have := f.freq.base.ordOf_mono (each.base.startOf_le_self (f.unitStart 0))
        simp only
        omega
      · rw [hskc.2 s hs]; exact Int.le_refl _
  obtain ⟨tb, k1, k2, k3⟩ := Timeboard.pattern_organizer (heap := heap) ha (by rw [hlay]; rfl) rfl hx hw hf (by exact g1) hsk
  refine ⟨tb, k1, ?_⟩
  have hR := Timeboard.Reachable.new k1
  intro t sch h1 h2
  have hus : ∀ j, f.unitStart j = f.freq.base.startOf (f.ord j) := fun j => rfl
  have hst : tb.startTime = f.unitStart 0 := by unfold Timeboard.startTime Frame.startTime; rw [k2]
  have hen : tb.endTime = f.unitStart f.n - 1 := by
    unfold Timeboard.endTime Frame.endTime; rw [k2, Frame.unitEnd_eq]; congr 2; omega
  rw [hst] at h1
  rw [hen] at h2
  have o1 : f.ord 0 ≤ f.freq.base.ordOf t := by rw [← f.freq.base.startOf_le_iff]; exact h1
  have o2 : f.freq.base.ordOf t < f.ord 0 + f.n := by
    rw [← f.freq.base.lt_startOf_iff, ← hord, ← hus]; omega
  have hi := hord (f.freq.base.ordOf t - f.ord 0)
  obtain ⟨k, x, hk, x1, x2⟩ := g2.cover (i := f.freq.base.ordOf t - f.ord 0) (by simp only; omega) (by simp only; omega)
  have hxm := List.mem_of_getElem? hk
  have hidx := calendar_index hbu hea hal g2 g3 g4 hxm x1 x2
  obtain ⟨l, l1, l2⟩ := k3 x hxm _ x1 x2
  have hi' : f.ord (f.freq.base.ordOf t - f.ord 0) = f.freq.base.ordOf t := by omega
  have hi2 : f.ord (f.freq.base.ordOf t - f.ord 0 + 1) = f.freq.base.ordOf t + 1 := by rw [hord]; omega
  have t1 : f.unitStart (f.freq.base.ordOf t - f.ord 0) ≤ t := by rw [hus, hi']; exact f.freq.base.startOf_le_self t
  have t2 : t < f.unitStart (f.freq.base.ordOf t - f.ord 0 + 1) := by rw [hus, hi2]; exact f.freq.base.lt_startOf_succ t
  rw [← k2] at l1 t1 t2
  obtain ⟨w, w1, w2, w3, w4⟩ := Timeboard.Starts.getWorkshift hR l1 t1 t2 sch
  rw [k2] at w3
  refine ⟨w, w1, ?_, w4, ?_⟩
  · rw [w3, hus, hi']; rfl
  · rw [w2, ← l2, hidx, hi']
    simp only [Period.ofTime, Period.startTime]
    rw [hus, hi']
    -- the period of the start of the unit is the period of the time
    have : each.base.ordOf (f.freq.base.startOf (f.freq.base.ordOf t)) = each.base.ordOf t := by
      rw [each.base.ordOf_eq_iff]
      obtain ⟨o', ho'⟩ := hal (each.base.ordOf t)
      have b1 := each.base.startOf_le_self t
      have b2 := each.base.lt_startOf_succ t
      have b3 := f.freq.base.startOf_le_self t
      refine ⟨?_, by omega⟩
      rw [ho'] at b1 ⊢
      rw [f.freq.base.startOf_le_startOf]
      exact (f.freq.base.startOf_le_iff _ _).1 b1
    rw [this]

/-- **C07**, on two timeboards. -/
theorem C07_independent_of_bounds {a b : Args L} {ha hb ha' hb' : Heap L} {each : Freq} {xs : List L} {ta tb : Timeboard L}
    (h1 : a.amendments = []) (h2 : b.amendments = []) (h3 : a.freq = b.freq)
    (h4 : a.layout = .organizer (.marker ⟨each, []⟩) [.pattern (.list xs)]) (h5 : b.layout = a.layout) (hx : xs ≠ [])
    (hbu : a.freq.mult = 1) (hea : each.mult = 1) (hta : Timeboard.new a ha = .ok (ta, ha')) (htb : Timeboard.new b hb = .ok (tb, hb'))
    {t : Time} (t1 : ta.startTime ≤ t) (t2 : t ≤ ta.endTime) (t3 : tb.startTime ≤ t) (t4 : t ≤ tb.endTime) (sa sb : Option (Schedule L)) :
    ∃ w w', ta.getWorkshift t sa = .ok w ∧ tb.getWorkshift t sb = .ok w' ∧ w.label = w'.label ∧
      w.startTime ta = w'.startTime tb ∧ w.duration ta = w'.duration tb := by
  have hc : checkGroupbyFreq a.freq each = true := by
    obtain ⟨org, f, st, g1, g2, _, _, g4, _⟩ := Timeboard.starts_iff h1 hta
    rw [h4] at g1
    cases g1
    have hff : f.freq = a.freq := by rw [(Frame.new_ok_iff.1 g2).2]
    cases hk : checkGroupbyFreq a.freq each with
    | true => rfl
    | false =>
      simp only [Layout.run, Frame.cutSpan, Frame.partitionWithMarker, hff, hk, Bool.not_false, if_true, Bind.bind, Except.bind, throw, throwThe,
        MonadExceptOf.throw] at g4
      simp at g4
  obtain ⟨_, f, _, _, _, wa, fa, _⟩ := Timeboard.new_ok_iff.1 hta
  obtain ⟨_, f', _, _, _, wb, fb, _⟩ := Timeboard.new_ok_iff.1 htb
  obtain ⟨ta', k1, k2⟩ := C07_calendar_pattern (heap := ha) h1 h4 hx wa fa hc hbu hea
  obtain ⟨tb', m1, m2⟩ := C07_calendar_pattern (heap := hb) h2 (h5.trans h4) hx wb fb (h3 ▸ hc) (h3 ▸ hbu) hea
  rw [hta] at k1; cases k1
  rw [htb] at m1; cases m1
  obtain ⟨w, w1, w2, w3, w4⟩ := k2 t sa t1 t2
  obtain ⟨w', w1', w2', w3', w4'⟩ := m2 t sb t3 t4
  rw [← h3] at w2' w4'
  refine ⟨w, w', w1, w1', ?_, by rw [w2, w2'], by rw [w3, w3']⟩
  rw [w4] at w4'
  exact Option.some.inj w4'

def weekFrom (s e : Time) : Args Int where
  freq := fD
  start := s
  stop := e
  layout := .organizer (.marker ⟨fW, []⟩) [.pattern (.list [1, 2, 3, 4, 5, 6, 7])]
  selector := fun l => decide (l < 6)
  defaultLabel := 0

/-- A week from Thursday 5 January 2017 to the next Tuesday, and from Monday. -/
example : (Timeboard.new (weekFrom (date 2017 1 5) (date 2017 1 10)) heap0).map (fun r => r.1.timeline.labels) = .ok [4, 5, 6, 7, 1, 2] ∧
    (Timeboard.new (weekFrom (date 2017 1 2) (date 2017 1 6)) heap0).map (fun r => r.1.timeline.labels) = .ok [1, 2, 3, 4, 5] := by decide +kernel

/-! ### C08 -/

/-- **C08.** The `i`-th span is treated with element `i mod len` and with nothing else. -/
theorem C08_in_turns {f : Frame} {cut : Cut} {elems : List (Layout L)} (he : elems ≠ []) {s : Span} {st st' : TLState L} :
    Layout.run f (.organizer cut elems) s st = .ok st' ↔
    ∃ (ss : List Span) (states : Nat → TLState L), f.cutSpan cut s = .ok ss ∧ Tiles s.first s.last ss ∧ states 0 = st ∧ states ss.length = st' ∧
      ∀ i x e, ss[i]? = some x → cyclic elems i = some e → Layout.run f e x (states i) = .ok (states (i + 1)) ∧
        ∀ j, x.first ≤ j → j ≤ x.last →
          ((states i).labels j = st.labels j ∧ (states i).mask j = st.mask j) ∧
          (st'.labels j = (states (i + 1)).labels j ∧ st'.mask j = (states (i + 1)).mask j) := by
  rw [Layout.organizer_states he]
  constructor
  · rintro ⟨ss, states, h1, h2, h3, h4⟩
    have ht := (Frame.cutSpan_tiles h1).2.2
    refine ⟨ss, states, h1, ht, h2, h3, ?_⟩
    intro i x e hx hce
    refine ⟨h4 i x e hx hce, ?_⟩
    intro j j1 j2
    have := states_local he ht h4 hx j1 j2
    rw [h2, h3] at this
    exact this
  · rintro ⟨ss, states, h1, _, h2, h3, h4⟩
    exact ⟨ss, states, h1, h2, h3, fun i x e hx hce => (h4 i x e hx hce).1⟩

/-- **C08**, on a structure of labels: the `k`-th span becomes one workshift with the label number `k mod len`. -/
theorem C08_labels {a : Args L} {heap : Heap L} {cut : Cut} {ls : List L} {f : Frame} {ss : List Span}
    (ha : a.amendments = []) (hlay : a.layout = .organizer cut (ls.map .label)) (hls : ls ≠ [])
    (hw : a.worktimeSource ∈ ["duration", "labels"])
    (hf : Frame.new a.freq a.start a.stop = .ok f) (hc : f.cutSpan cut { first := 0, last := (f.n : Int) - 1 } = .ok ss) :
    ∃ tb, Timeboard.new a heap = .ok (tb, heap) ∧ tb.timeline.frame = f ∧
      ∀ t d l, tb.Starts t d l ↔ ∃ (k : Nat) (x : Span), ss[k]? = some x ∧ t = f.unitStart x.first ∧ d = x.last - x.first + 1 ∧
        cyclic ls k = some l := Timeboard.labels_organizer ha hlay hls hw hf hc

/-- **C08**, on an empty structure. -/
theorem C08_empty_structure {a : Args L} {heap : Heap L} {cut : Cut} {f : Frame} {ss : List Span}
    (ha : a.amendments = []) (hlay : a.layout = .organizer cut [])
    (hw : a.worktimeSource ∈ ["duration", "labels"])
    (hf : Frame.new a.freq a.start a.stop = .ok f) (hc : f.cutSpan cut { first := 0, last := (f.n : Int) - 1 } = .ok ss) :
    ∃ tb, Timeboard.new a heap = .ok (tb, heap) ∧ tb.timeline.frame = f ∧
      ∀ (i : Nat), i < f.n → tb.Starts (f.unitStart i) 1 a.defaultLabel := by
  have horg : makeOrganizer a.layout = .ok (.organizer cut []) := by rw [hlay]; rfl
  have hrun : Layout.run f (.organizer cut []) { first := 0, last := (f.n : Int) - 1 } (TLState.init a.defaultLabel heap)
      = .ok (TLState.init a.defaultLabel heap) := by
    simp only [Layout.run, hc, Layout.runAll]
    exact zipRun_nil
  obtain ⟨tb, h1⟩ := Timeboard.new_of_run ha horg hw hf hrun
  obtain ⟨org', f', st, g1, g2, _, g3, g4, _, _, g5⟩ := Timeboard.starts_iff ha h1
  rw [horg] at g1; cases g1
  rw [hf] at g2; cases g2
  rw [hrun] at g4; cases g4
  refine ⟨tb, h1, g3, ?_⟩
  intro i hi
  refine (g5 _ _ _).2 ⟨(i : Int), by omega, by omega, by omega, rfl, rfl, rfl, by intro j; omega, fun _ => rfl⟩

/-- Spans of 1–3, 4–5 and 6–8 January: a pattern, a label, again the pattern; and nested organizers. -/
def turnArgs (elems : List (Layout Int)) : Args Int where
  freq := fD
  start := date 2017 1 1
  stop := date 2017 1 8
  layout := .organizer (.marks [date 2017 1 4, date 2017 1 6]) elems
  selector := fun l => decide (l > 1)
  defaultLabel := 9

example : (Timeboard.new (turnArgs [.pattern (.list [1, 2]), .label 5]) heap0).map (fun r => (r.1.timeline.wsIdx, r.1.timeline.labels)) =
      .ok ([0, 1, 2, 3, 5, 6, 7], [1, 2, 1, 5, 1, 2, 1]) ∧
    (Timeboard.new (turnArgs [.organizer (.marks [date 2017 1 2, date 2017 1 7]) [.label 1, .label 2], .pattern (.list [3])]) heap0).map
        (fun r => (r.1.timeline.wsIdx, r.1.timeline.labels)) = .ok ([0, 1, 3, 4, 5, 6], [1, 2, 3, 3, 1, 2]) ∧
    (Timeboard.new (turnArgs []) heap0).map (fun r => r.1.timeline.labels) = .ok [9, 9, 9, 9, 9, 9, 9, 9] := by decide +kernel

/-! ### C09, C10 -/

/-- **C09.** The labels handed out by a RememberingPattern while any layout is applied to any span are the next ones of its
endless cycle: `draws` lists what becomes of them, in order. -/
theorem C09_uninterrupted {f : Frame} {id : Nat} {l : Layout L} {s : Span} {st st' : TLState L} {xs : List L} {p : Nat} (hs : s.first ≤ s.last)
    (h : Layout.run f l s st = .ok st') (hp : (st.heap id).HandedOut xs p) :
    (st'.heap id).HandedOut xs (p + (Layout.draws f id l s).length) ∧
    ∀ (n : Nat) (u : Int), (Layout.draws f id l s)[n]? = some (some u) → some (st'.labels u) = cyclic xs (p + n) := by
  obtain ⟨h1, h2⟩ := Layout.run_tracks f id l s st st' xs p hs h hp
  exact ⟨h1, fun n u hu => (h2 n u hu).2.2.1⟩

/-- **C09**, on a timeboard. -/
theorem C09_timeboard {a : Args L} {heap heap' : Heap L} {tb : Timeboard L} {id : Nat} {xs : List L} {p : Nat}
    (ha : a.amendments = []) (h : Timeboard.new a heap = .ok (tb, heap')) (hp : (heap id).HandedOut xs p) :
    ∃ org, makeOrganizer a.layout = .ok org ∧
      (heap' id).HandedOut xs (p + (Layout.draws tb.timeline.frame id org { first := 0, last := (tb.timeline.frame.n : Int) - 1 }).length) ∧
      ∀ (n : Nat) (u : Int), (Layout.draws tb.timeline.frame id org { first := 0, last := (tb.timeline.frame.n : Int) - 1 })[n]? = some (some u) →
        ∃ d l, tb.Starts (tb.timeline.frame.unitStart u) d l ∧ cyclic xs (p + n) = some l := by
  obtain ⟨org, f, st, g1, g2, g0, g3, g4, g5, gm, g6⟩ := Timeboard.starts_iff ha h
  obtain ⟨h1, h2⟩ := Layout.run_tracks f id org _ _ st xs p (by simp only; omega) g4 hp
  refine ⟨org, g1, ?_, ?_⟩
  · rw [g3, g5]; exact h1
  · intro n u hu
    rw [g3] at hu ⊢
    obtain ⟨u1, u2, u3, u4⟩ := h2 n u hu
    simp only at u1 u2
    have hmu : st.mask u = true := u4
    obtain ⟨d, d1, d2, d3, d4⟩ := exists_next_mask st.mask (u := u) (n := f.n) (by omega)
    exact ⟨d, st.labels u, (g6 _ _ _).2 ⟨u, u1, d2, d1, rfl, hmu, rfl, d3, d4⟩, u3.symm⟩

/-- **C09**, on a RememberingPattern used as the structure: one label for each span. -/
theorem C09_structure {a : Args L} {heap heap' : Heap L} {tb : Timeboard L} {id : Nat} {xs : List L} {p : Nat} {cut : Cut} {ss : List Span}
    (ha : a.amendments = []) (hlay : a.layout = .organizerRP cut id) (h : Timeboard.new a heap = .ok (tb, heap'))
    (hp : (heap id).HandedOut xs p)
    (hc : tb.timeline.frame.cutSpan cut { first := 0, last := (tb.timeline.frame.n : Int) - 1 } = .ok ss) :
    (heap' id).HandedOut xs (p + ss.length) ∧
      ∀ (k : Nat) (x : Span), ss[k]? = some x → ∃ d l, tb.Starts (tb.timeline.frame.unitStart x.first) d l ∧ cyclic xs (p + k) = some l := by
  obtain ⟨org, h1, h2, h3⟩ := C09_timeboard ha h hp
  rw [hlay] at h1
  cases h1
  simp only [Layout.draws, hc, ↓reduceIte, List.length_map] at h2 h3
  refine ⟨h2, ?_⟩
  intro k x hx
  exact h3 k x.first (by rw [List.getElem?_map, hx]; rfl)

/-- **C09**, on an organizer with marks which applies the same RememberingPattern to all spans: the marks do not matter, unit `i`
gets the label number `p + i`. -/
theorem C09_all_spans {a : Args L} {heap heap' : Heap L} {tb : Timeboard L} {id : Nat} {xs : List L} {p : Nat} {ts : List Time}
    (ha : a.amendments = []) (hlay : a.layout = .organizer (.marks ts) [.pattern (.rp id)]) (h : Timeboard.new a heap = .ok (tb, heap'))
    (hp : (heap id).HandedOut xs p) :
    (heap' id).HandedOut xs (p + tb.timeline.frame.n) ∧
      ∀ (i : Nat), i < tb.timeline.frame.n → ∃ d l, tb.Starts (tb.timeline.frame.unitStart i) d l ∧ cyclic xs (p + i) = some l := by
  obtain ⟨org, h1, h2, h3⟩ := C09_timeboard ha h hp
  rw [hlay] at h1
  cases h1
  have hn : 0 < tb.timeline.frame.n := by
    obtain ⟨_, _, _, _, _, g0, g3, _⟩ := Timeboard.starts_iff ha h
    rw [g3]; exact g0
  have key : ∀ (ss : List Span) (a b : Int) (q : Nat), Tiles a b ss → (∀ s ∈ ss, s.skipLeft = 0) →
      (ss.zipIdx q).flatMap (fun si => spanDraws si.1) = (intRange a (b + 1)).map some := by
    intro ss
    induction ss with
    | nil => intro a b q ht; exact ht.elim
    | cons s ss ih =>
      intro a b q ht hs
      have hz := hs s (by simp)
      have hm := ht.mem (List.mem_cons_self : s ∈ s :: ss)
      have hsd : spanDraws s = (intRange s.first (s.last + 1)).map some := by unfold spanDraws; rw [hz]; simp
      rw [List.zipIdx_cons, List.flatMap_cons]
      simp only
      rw [hsd]
      cases ss with
      | nil =>
        obtain ⟨e1, e2, _⟩ := ht
        simp [e1, e2]
      | cons t r =>
        obtain ⟨e1, e2, e3⟩ := ht
        have := ih _ _ (q + 1) e3 (fun x hx => hs x (List.mem_cons_of_mem _ hx))
        rw [this, ← List.map_append, e1]
        congr 1
        exact intRange_append (by omega) (by have := e3.le; omega)
  obtain ⟨ss, c1⟩ := Frame.createSubspans_exists (f := tb.timeline.frame) (s := { first := 0, last := (tb.timeline.frame.n : Int) - 1 }) ts
    (by simp) (by simp only; omega) (by simp only; omega)
  have c2 := (Frame.createSubspans_tiles c1).2.2
  have c3 : ∀ s ∈ ss, s.skipLeft = 0 := by
    obtain ⟨_, _, _, e⟩ := Frame.createSubspans_ok_iff.1 c1
    rw [e]
    exact fun s hs => (spansBetween_skip _ _ _ s hs).1
  have hd : Layout.draws tb.timeline.frame id (.organizer (.marks ts) [.pattern (.rp id)] : Layout L)
      { first := 0, last := (tb.timeline.frame.n : Int) - 1 } = (intRange 0 tb.timeline.frame.n).map some := by
    simp only [Layout.draws, Frame.cutSpan, Frame.partitionAtMarks, c1, Layout.drawsAll, ↓reduceIte, inTurns, List.length_singleton,
      Nat.mod_one, List.getElem?_cons_zero]
    rw [key ss _ _ 0 c2 c3]
    simp
  rw [hd] at h2 h3
  have hl : ((intRange 0 tb.timeline.frame.n).map (some : Int → Option Int)).length = tb.timeline.frame.n := by
    simp [length_intRange]
  rw [hl] at h2
  refine ⟨h2, ?_⟩
  intro i hi
  refine h3 i i ?_
  rw [List.getElem?_map, getElem?_intRange (by omega)]
  simp

/-- **C10.** A second timeboard made with the RememberingPattern goes on with the label following the last one drawn. -/
theorem C10_carries_over {a b : Args L} {h0 h1 h2 : Heap L} {ta tb : Timeboard L} {id : Nat} {xs : List L} {p : Nat}
    (ha : a.amendments = []) (hb : b.amendments = []) (hta : Timeboard.new a h0 = .ok (ta, h1)) (htb : Timeboard.new b h1 = .ok (tb, h2))
    (hp : (h0 id).HandedOut xs p) :
    ∃ orga orgb, makeOrganizer a.layout = .ok orga ∧ makeOrganizer b.layout = .ok orgb ∧
      ∀ (n : Nat) (u : Int), (Layout.draws tb.timeline.frame id orgb { first := 0, last := (tb.timeline.frame.n : Int) - 1 })[n]? = some (some u) →
        ∃ d l, tb.Starts (tb.timeline.frame.unitStart u) d l ∧
          cyclic xs (p + (Layout.draws ta.timeline.frame id orga { first := 0, last := (ta.timeline.frame.n : Int) - 1 }).length + n) = some l := by
  obtain ⟨orga, g1, g2, _⟩ := C09_timeboard ha hta hp
  obtain ⟨orgb, k1, _, k3⟩ := C09_timeboard hb htb g2
  exact ⟨orga, orgb, g1, k1, k3⟩

/-- **C10**, on the same layout `Organizer(marks, structure=[RememberingPattern])` twice: the labels go on. -/
theorem C10_second_timeboard {a b : Args L} {h0 h1 h2 : Heap L} {ta tb : Timeboard L} {id : Nat} {xs : List L} {p : Nat} {ts : List Time}
    (ha : a.amendments = []) (hb : b.amendments = []) (hla : a.layout = .organizer (.marks ts) [.pattern (.rp id)]) (hlb : b.layout = a.layout)
    (hta : Timeboard.new a h0 = .ok (ta, h1)) (htb : Timeboard.new b h1 = .ok (tb, h2)) (hp : (h0 id).HandedOut xs p) :
    ∀ (i : Nat), i < tb.timeline.frame.n →
      ∃ d l, tb.Starts (tb.timeline.frame.unitStart i) d l ∧ cyclic xs (p + ta.timeline.frame.n + i) = some l := by
  obtain ⟨g1, _⟩ := C09_all_spans ha hla hta hp
  exact (C09_all_spans hb (hlb.trans hla) htb g1).2

/-- **C10**, on layouts without RememberingPatterns: the timeboard does not depend on what was made before, and nothing which is
made later depends on it. -/
theorem C10_plain_layouts {a : Args L} {heap heap1 : Heap L} {tb : Timeboard L} (hp : a.layout.plain = true)
    (h : Timeboard.new a heap = .ok (tb, heap1)) : heap1 = heap ∧ ∀ heap', Timeboard.new a heap' = .ok (tb, heap') := by
  constructor
  · have := Timeboard.new_plainLayout hp heap heap
    rw [h] at this
    simp only [Except.map, Except.ok.injEq, Prod.mk.injEq, true_and] at this
    exact this
  · intro heap'
    rw [Timeboard.new_plainLayout hp heap heap', h]; rfl

def rpHeap : Heap Int := fun _ => Cycle.start [1, 2, 3]

def rpArgs (l : Layout Int) (s e : Time) : Args Int where
  freq := fD
  start := s
  stop := e
  layout := l
  selector := fun l => decide (l > 1)
  defaultLabel := 9

def rpLayout : Layout Int := .organizer (.marks [date 2017 1 3]) [.pattern (.rp 0), .label 7]

/-- Two timeboards from the same layout; a RememberingPattern as structure; the skipped left dangle draws labels as well (week from
Wednesday: two labels are skipped). -/
example : (do let r ← Timeboard.new (rpArgs (.organizer (.marks [date 2017 1 3]) [.pattern (.rp 0)]) (date 2017 1 1) (date 2017 1 4)) rpHeap
              let r' ← Timeboard.new (rpArgs (.organizer (.marks [date 2017 1 3]) [.pattern (.rp 0)]) (date 2017 1 1) (date 2017 1 4)) r.2
              return [r.1.timeline.labels, r'.1.timeline.labels]) = Except.ok [[1, 2, 3, 1], [2, 3, 1, 2]] ∧
    (Timeboard.new (rpArgs (.organizerRP (.marks [date 2017 1 3, date 2017 1 4]) 0) (date 2017 1 1) (date 2017 1 6)) rpHeap).map
      (fun r => (r.1.timeline.wsIdx, r.1.timeline.labels)) = .ok ([0, 2, 3], [1, 2, 3]) ∧
    (Timeboard.new (rpArgs (.organizer (.marker ⟨fW, []⟩) [.pattern (.rp 0)]) (date 2017 1 4) (date 2017 1 10)) rpHeap).map
      (fun r => r.1.timeline.labels) = .ok [3, 1, 2, 3, 1, 2, 3] := by decide +kernel

example : (rpHeap 0).HandedOut [1, 2, 3] 0 := Cycle.handedOut_start (by simp)
example : (Layout.plain (.organizer (.marks []) [.pattern (.list [1, 2]), .label 3] : Layout Int)) = true ∧ Layout.plain rpLayout = false := by decide

/-! ### C11 -/

/-- **C11.** -/
theorem C11_local {f : Frame} {l : Layout L} {s : Span} {st st' : TLState L} (hs : s.first ≤ s.last) (h : Layout.run f l s st = .ok st') :
    (∀ i, (i < s.first ∨ s.last < i) → st'.labels i = st.labels i ∧ st'.mask i = st.mask i) ∧
    st'.mask s.first = st.mask s.first := Layout.run_local f l s st st' hs h

/-- **C11**, on an organizer applied to a part of the frame: the first unit of every span starts a workshift. -/
theorem C11_every_span_starts_workshift {a : Args L} {heap heap' : Heap L} {tb : Timeboard L} {cut : Cut} {elems : List (Layout L)} {ss : List Span}
    (ha : a.amendments = []) (hlay : a.layout = .organizer cut elems) (h : Timeboard.new a heap = .ok (tb, heap'))
    (hc : tb.timeline.frame.cutSpan cut { first := 0, last := (tb.timeline.frame.n : Int) - 1 } = .ok ss) :
    ∀ x ∈ ss, ∃ k w, 0 ≤ k ∧ k < tb.timeline.len ∧ Workshift.new tb k = .ok w ∧ w.startTime tb = .ok (tb.timeline.frame.unitStart x.first) := by
  intro x hx
  obtain ⟨org, f, st, g1, g2, g0, g3, g4, g5, gm, g6⟩ := Timeboard.starts_iff ha h
  rw [hlay] at g1
  cases g1
  rw [g3] at hc ⊢
  have ht := (Frame.cutSpan_tiles hc).2.2
  have hxm := ht.mem hx
  simp only at hxm
  have hmask : st.mask x.first = true := by
    by_cases he : elems = []
    · subst he
      simp only [Layout.run, hc, Layout.runAll] at g4
      rw [zipRun_nil] at g4
      cases g4; rfl
    · obtain ⟨ss', states, c1, c2, c3, c4, c5⟩ := (C08_in_turns he).1 g4
      rw [hc] at c1; cases c1
      obtain ⟨k, hk⟩ := List.getElem?_of_mem hx
      obtain ⟨e, hce⟩ := cyclic_some he k
      obtain ⟨r1, r2⟩ := c5 k x e hk hce
      obtain ⟨r3, r4⟩ := r2 x.first (Int.le_refl _) hxm.2.1
      rw [r4.2, (Layout.run_local f e x _ _ hxm.2.1 r1).2, r3.2]
      rfl
  have hv : tb.Valid := (Timeboard.Reachable.new h).valid
  obtain ⟨d, d1, d2, d3, d4⟩ := exists_next_mask st.mask (u := x.first) (n := f.n) (by omega)
  obtain ⟨k, w, k0, k1, kw, kt, _, _⟩ := (g6 (f.unitStart x.first) d (st.labels x.first)).2 ⟨x.first, by omega, d2, d1, rfl, hmask, rfl, d3, d4⟩
  exact ⟨k, w, k0, k1, kw, kt⟩

example : (Timeboard.new (turnArgs [.organizer (.marks [date 2017 1 2, date 2017 1 7]) [.label 1, .label 2], .pattern (.list [3])]) heap0).isOk = true := by
  decide +kernel

/-! ### C46 -/

/-- **C46**, on spans: `at` given, no point found around the span. -/
theorem C46_span_kept_whole {f F : Frame} {s : Span} {m : Marker} (hc : checkGroupbyFreq f.freq m.each = true)
    (h0 : 0 ≤ s.first) (h1 : s.first ≤ s.last) (h2 : s.last < f.n) (hne : m.ats ≠ [])
    (hF : Frame.new m.each (f.unitStart s.first - getFreqDelta m.each) (f.unitEnd s.last + getFreqDelta m.each) = .ok F)
    (hno : ∀ how ∈ m.ats, how F f.freq = .ok []) :
    f.partitionWithMarker s m = .ok [{ first := s.first, last := s.last, skipLeft := -1, skipRight := -1 }] := by
  apply Frame.partitionWithMarker_none hc h0 h1 h2
  have hcol : ∀ hs : List (Frame → Freq → Except Err (List Time)), (∀ how ∈ hs, how F f.freq = .ok []) → collectAts F f.freq hs = .ok [] := by
    intro hs
    induction hs with
    | nil => intro _; rfl
    | cons h hs ih =>
      intro hh
      unfold collectAts
      rw [hh h (by simp), ih (fun x hx => hh x (by simp [hx]))]
      rfl
  have he : m.ats.isEmpty = false := by simpa using hne
  unfold Frame.stencilFor
  simp only [he, Bool.false_eq_true, if_false, hF, hcol m.ats hno, Bind.bind, Except.bind, pure, Except.pure]
  rfl

/-- **C46**, on timeboards: a pattern cannot be applied, a label can. -/
theorem C46_no_marks {a : Args L} {heap : Heap L} {m : Marker} {f F : Frame} {e : Layout L} {es : List (Layout L)}
    (ha : a.amendments = []) (hlay : a.layout = .organizer (.marker m) (e :: es))
    (hw : a.worktimeSource ∈ ["duration", "labels"]) (hf : Frame.new a.freq a.start a.stop = .ok f)
    (hc : checkGroupbyFreq a.freq m.each = true) (hne : m.ats ≠ [])
    (hF : Frame.new m.each (f.startTime - getFreqDelta m.each) (f.endTime + getFreqDelta m.each) = .ok F)
    (hno : ∀ how ∈ m.ats, how F a.freq = .ok []) :
    (∀ p, e = .pattern p → Timeboard.new a heap = .error .outOfBounds) ∧
    (∀ l, e = .label l → ∃ tb, Timeboard.new a heap = .ok (tb, heap) ∧ tb.timeline.frame = f ∧
      ∀ t d l', tb.Starts t d l' ↔ t = f.startTime ∧ d = f.n ∧ l' = l) := by
  have hn := Frame.new_valid hf
  unfold Frame.Valid at hn
  have hff : f.freq = a.freq := by rw [(Frame.new_ok_iff.1 hf).2]
  rw [← hff] at hc hno
  have hcut := C46_span_kept_whole (f := f) (F := F) (s := { first := 0, last := (f.n : Int) - 1 }) hc (by simp) (by simp only; omega)
    (by simp only; omega) hne hF hno
  have horg : makeOrganizer a.layout = .ok (.organizer (.marker m) (e :: es)) := by rw [hlay]; rfl
  constructor
  · rintro p rfl
    refine Timeboard.new_of_run_error horg hw hf ?_
    simp only [Layout.run, Frame.cutSpan, hcut, Layout.runAll, zipRun, Cycle.start, Cycle.next]
    rw [applyPattern_negative (by simp)]
  · rintro l rfl
    have hrun : Layout.run f (.organizer (.marker m) (.label l :: es)) { first := 0, last := (f.n : Int) - 1 } (TLState.init a.defaultLabel heap)
        = .ok { labels := fun i => if i = 0 then l else a.defaultLabel
                mask := fun i => if 0 + 1 ≤ i ∧ i ≤ (f.n : Int) - 1 then false else true, heap := heap } := by
      simp only [Layout.run, Frame.cutSpan, hcut, Layout.runAll, zipRun, Cycle.start, Cycle.next, makeCompound, TLState.init]
    obtain ⟨tb, h1⟩ := Timeboard.new_of_run ha horg hw hf hrun
    obtain ⟨org', f', st, g1, g2, _, g3, g4, _, _, g5⟩ := Timeboard.starts_iff ha h1
    rw [horg] at g1; cases g1
    rw [hf] at g2; cases g2
    rw [hrun] at g4
    simp only [Except.ok.injEq] at g4
    refine ⟨tb, h1, g3, ?_⟩
    intro t d l'
    rw [g5, ← g4]
    simp only
    constructor
    · rintro ⟨i, i0, i1, d1, ht, hm, hl, hj, hd⟩
      have hi : i = 0 := by
        rcases Int.lt_or_le 0 i with hc | hc
        · rw [if_pos (by omega)] at hm; simp at hm
        · omega
      subst hi
      have hdn : d = f.n := by
        rcases Int.lt_or_le d f.n with hc | hc
        · have := hd (by omega)
          rw [if_pos (by omega)] at this; simp at this
        · omega
      exact ⟨ht, hdn, by simpa using hl⟩
    · rintro ⟨rfl, rfl, rfl⟩
      exact ⟨0, by omega, by omega, by omega, rfl, by simp, by simp, fun j j1 j2 => by rw [if_pos (by omega)], fun hc => by omega⟩

/-- A user-defined `how` which never finds anything, on months of January–March 2017. -/
def noMarks (e : Layout Int) : Args Int where
  freq := fD
  start := date 2017 1 10
  stop := date 2017 3 5
  layout := .organizer (.marker ⟨fM, [fun _ _ => .ok []]⟩) [e]
  selector := fun l => decide (l > 1)
  defaultLabel := 9

example : (Timeboard.new (noMarks (.label 4)) heap0).map (fun r => (r.1.timeline.wsIdx, r.1.timeline.labels)) = .ok ([0], [4]) ∧
    (Timeboard.new (noMarks (.pattern (.list [1, 2]))) heap0).map (fun r => r.1.timeline.wsIdx) = .error .outOfBounds := by decide +kernel

end TB
