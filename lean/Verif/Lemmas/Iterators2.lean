import Verif.Lemmas.Iterators
import Verif.Lemmas.Nested
import Verif.Spec.Attempt
/-! Timeboards made with iterators. -/
namespace TB
variable {L : Type}

/-! ### The layout without iterators -/

theorem Tiles.spansBetween : ∀ {ss : List Span} {a b : Int}, Tiles a b ss → (∀ s ∈ ss, s.skipLeft = 0 ∧ s.skipRight = 0) →
    spansBetween a b ((ss.map Span.first).drop 1) = ss
  | [], _, _, h, _ => h.elim
  | [s], a, b, h, hs => by
    obtain ⟨h1, h2, _⟩ := h
    have := hs s (by simp)
    cases s
    simp_all [TB.spansBetween]
  | s :: t :: r, a, b, h, hs => by
    obtain ⟨h1, h2, h3⟩ := h
    have ih := h3.spansBetween (fun x hx => hs x (List.mem_cons_of_mem _ hx))
    have ht := h3.head.1
    simp only [List.map_cons, List.drop_succ_cons, List.drop_zero, TB.spansBetween] at ih ⊢
    rw [ht, ih]
    congr 1
    have := hs s (by simp)
    cases s
    simp only [Span.mk.injEq] at *
    omega

theorem Frame.divide_pieces {f : Frame} (hn : 0 < f.n) {ps : List (Piece L)} (h : Tiles 0 ((f.n : Int) - 1) (ps.map Piece.span)) :
    f.divide { first := 0, last := (f.n : Int) - 1 } (ps.map (fun p => f.unitStart p.first)) = ps.map Piece.span := by
  unfold Frame.divide
  rw [(groups_range _ ((f.n : Int) - 1) ((f.n : Int) - 1).toNat 0 (by omega)).1]
  have hp := h.pairwise_first
  have hsb := h.spansBetween (by
    intro s hs
    obtain ⟨p, _, rfl⟩ := List.mem_map.1 hs
    exact ⟨rfl, rfl⟩)
  rw [← hsb]
  congr 1
  have hmem : ∀ x, x ∈ (ps.map Piece.span).map Span.first ↔ ∃ p ∈ ps, p.first = x := by
    intro x
    simp [Piece.span]
  cases hps : (ps.map Piece.span).map Span.first with
  | nil =>
    rw [List.map_eq_nil_iff] at hps
    rw [hps] at h; exact h.elim
  | cons x0 xs =>
    have hx0 : x0 = 0 := by
      cases hq : ps.map Piece.span with
      | nil => rw [hq] at hps; simp at hps
      | cons s r =>
        rw [hq] at hps h
        simp only [List.map_cons, List.cons.injEq] at hps
        rw [← hps.1]; exact h.head.1
    rw [hps] at hp hmem
    rw [List.pairwise_cons] at hp
    simp only [List.drop_succ_cons, List.drop_zero]
    apply pairwise_lt_ext
    · exact (pairwise_intRange _ _).filter _
    · exact hp.2
    · intro x
      rw [List.mem_filter, mem_intRange, List.any_eq_true]
      constructor
      · rintro ⟨h1, t, ht, h2⟩
        obtain ⟨p, hpm, rfl⟩ := List.mem_map.1 ht
        rw [Frame.fallsIn_unit, decide_eq_true_eq] at h2
        have := (hmem x).2 ⟨p, hpm, h2.symm⟩
        rcases List.mem_cons.1 this with h3 | h3
        · omega
        · exact h3
      · intro hx
        have h1 := hp.1 x hx
        obtain ⟨p, hpm, h2⟩ := (hmem x).1 (List.mem_cons_of_mem _ hx)
        have hb := h.mem (List.mem_map_of_mem (f := Piece.span) hpm)
        simp only [Piece.span] at hb
        refine ⟨by omega, _, List.mem_map_of_mem hpm, ?_⟩
        rw [Frame.fallsIn_unit, decide_eq_true_eq]; exact h2.symm

theorem readInTurnsIt_labels {M : Type} {ls : List (Piece L)} (m : M) : ∀ (ps : List (Piece L)) (k : Nat), ls.drop k = ps →
    readInTurns (ls.map (fun p => (fun s m => .ok ([{ first := s.first, last := s.last, label := p.label }], m) : ReaderOf M L))) k (ps.map Piece.span) m =
      .ok (ps, m)
  | [], _, _ => rfl
  | p :: ps, k, h => by
    have hk : k < ls.length := by
      rcases Nat.lt_or_ge k ls.length with hk | hk
      · exact hk
      · rw [List.drop_eq_nil_of_le hk] at h; cases h
    rw [List.drop_eq_getElem_cons hk] at h
    injection h with h1 h2
    have ih := readInTurnsIt_labels m ps (k + 1) h2
    simp only [List.map_cons, readInTurns]
    have hc : cyclic (ls.map (fun p => (fun s m => .ok ([{ first := s.first, last := s.last, label := p.label }], m) : ReaderOf M L))) k =
        some (fun s m => .ok ([{ first := s.first, last := s.last, label := p.label }], m)) := by
      unfold cyclic
      rw [List.length_map, Nat.mod_eq_of_lt hk, List.getElem?_map, List.getElem?_eq_getElem hk, h1]; rfl
    rw [hc]
    simp only
    rw [ih]
    rfl

theorem Layout.readAll_labels (f : Frame) (dl : L) (ps : List (Piece L)) :
    Layout.readAll f dl (ps.map (fun p => .label p.label)) =
      ps.map (fun p => (fun s m => .ok ([{ first := s.first, last := s.last, label := p.label }], m) : Reader L)) := by
  rw [Layout.readAll_eq, List.map_map]
  apply List.map_congr_left
  intro p _
  simp [Layout.read]

theorem plainLayout_read {f : Frame} (hn : 0 < f.n) (dl : L) {ps : List (Piece L)} (h : Tiles 0 ((f.n : Int) - 1) (ps.map Piece.span)) (m : Memory L) :
    Layout.read f dl (plainLayout f ps) { first := 0, last := (f.n : Int) - 1 } m = .ok (ps, m) := by
  have hne : ps ≠ [] := by rintro rfl; exact h.elim
  unfold plainLayout Layout.read
  simp only [Frame.cut]
  rw [Frame.divide_pieces hn h, Layout.readAll_labels]
  have : (List.map (fun p : Piece L => Layout.label p.label) ps).isEmpty = false := by cases ps <;> simp_all
  simp only [this, Bool.false_eq_true, if_false]
  exact readInTurnsIt_labels m ps 0 (by simp)

theorem zipRun_quiet : ∀ (ss : List Span) {c : Cycle (Step L)} {st st' : TLState L},
    (∀ p ∈ c.saved, ∀ s st st', p s st = .ok st' → st'.heap = st.heap) → (∀ p ∈ c.rest, ∀ s st st', p s st = .ok st' → st'.heap = st.heap) →
    zipRun ss c st = .ok st' → st'.heap = st.heap
  | [], c, st, st', _, _, h => by simp only [zipRun, Except.ok.injEq] at h; rw [h]
  | s :: ss, c, st, st', hs, hr, h => by
    unfold zipRun at h
    cases hn : c.next with
    | none => rw [hn] at h; simp only [Except.ok.injEq] at h; rw [h]
    | some q =>
      obtain ⟨step, c'⟩ := q
      obtain ⟨hp, hs', hr'⟩ := c.mem_next hn hs hr
      rw [hn] at h
      simp only at h
      cases he : step s st with
      | error e => rw [he] at h; cases h
      | ok st1 =>
        rw [he] at h
        exact (zipRun_quiet ss hs' hr' h).trans (hp _ _ _ he)

theorem plainLayout_quiet {f : Frame} {ps : List (Piece L)} {s : Span} {st st' : TLState L} (h : Layout.run f (plainLayout f ps) s st = .ok st') :
    st'.heap = st.heap := by
  unfold plainLayout at h
  simp only [Layout.run] at h
  cases hc : f.cutSpan (.marks (ps.map (fun p => f.unitStart p.first))) s with
  | error e => rw [hc] at h; cases h
  | ok ss =>
    rw [hc] at h
    have e : ps.map (fun p => Layout.label p.label) = (ps.map Piece.label).map Layout.label := by simp
    rw [e, runAll_labels] at h
    have hq : ∀ p ∈ (ps.map Piece.label).map makeCompound, ∀ s (st st' : TLState L), p s st = .ok st' → st'.heap = st.heap := by
      intro p hp s st st' hh
      obtain ⟨l, _, rfl⟩ := List.mem_map.1 hp
      simp only [makeCompound, Except.ok.injEq] at hh
      rw [← hh]
    exact zipRun_quiet ss hq hq h

theorem maskedCounter_congr {p q : Int → Bool} : ∀ (k : Nat) (i n : Int), (∀ x, i ≤ x → x < i + k → p x = q x) → maskedCounter p k i n = maskedCounter q k i n
  | 0, _, _, _ => rfl
  | k + 1, i, n, h => by
    unfold maskedCounter
    rw [h i (by omega) (by omega)]
    have h' : ∀ x, i + 1 ≤ x → x < i + 1 + k → p x = q x := fun x h1 h2 => h x (by omega) (by omega)
    split
    · rw [maskedCounter_congr k _ _ h']
    · rw [maskedCounter_congr k _ _ h']

/-- What becomes of a timeline is told by its pieces. -/
theorem Organized.same {st st' : TLState L} {n : Nat} {ps : List (Piece L)} (h : Organized st 0 ((n : Int) - 1) ps) (h' : Organized st' 0 ((n : Int) - 1) ps) :
    TB.nonzeroMask st.mask n = TB.nonzeroMask st'.mask n ∧ (TB.nonzeroMask st.mask n).map st.labels = (TB.nonzeroMask st'.mask n).map st'.labels ∧
      maskedCounter st.mask n 0 0 = maskedCounter st'.mask n 0 0 := by
  refine ⟨by rw [h.nonzeroMask, h'.nonzeroMask], by rw [h.labels, h'.labels], ?_⟩
  apply maskedCounter_congr
  intro x h1 h2
  have e := h.nonzeroMask.trans h'.nonzeroMask.symm
  have a1 := mem_nonzeroMask (mask := st.mask) (n := n) (x := x)
  have a2 := mem_nonzeroMask (mask := st'.mask) (n := n) (x := x)
  rw [e] at a1
  rw [Bool.eq_iff_iff]
  constructor
  · intro hx; exact (a2.1 (a1.2 ⟨h1, by omega, hx⟩)).2.2
  · intro hx; exact (a1.1 (a2.2 ⟨h1, by omega, hx⟩)).2.2

theorem Timeline.new_plain {f : Frame} (hn : 0 < f.n) {ps : List (Piece L)} {st : TLState L} (h : Organized st 0 ((f.n : Int) - 1) ps) (refEnd : Bool) (dl : L)
    (heap0 : Heap L) (m : Memory L) (hm : heap0.Shows m) :
    Timeline.new f (some (plainLayout f ps)) refEnd dl heap0 =
      .ok ({ frame := f, wsIdx := nonzeroMask st.mask f.n, labels := (nonzeroMask st.mask f.n).map st.labels,
             frameband := maskedCounter st.mask f.n 0 0, refEnd := refEnd }, heap0) := by
  have hr := Layout.run_reads f dl (plainLayout f ps) { first := 0, last := (f.n : Int) - 1 }
    { labels := fun _ => dl, mask := fun _ => true, heap := heap0 } m (by simp; omega) ⟨by simp, by simp only; omega⟩ hm (fun i _ _ => ⟨rfl, rfl⟩)
  unfold OutcomeOf at hr
  rw [plainLayout_read hn dl h.1] at hr
  obtain ⟨st', hr, _, hog⟩ := hr
  have hq := plainLayout_quiet hr
  obtain ⟨e1, e2, e3⟩ := h.same hog
  unfold Timeline.new
  simp only [hr]
  rw [e2, e1, e3, show st'.heap = heap0 from hq]

/-- **The layout without iterators.** -/
theorem Timeboard.newIt_plain (a : Args L) (heap : Heap L) (m : Supplies L) (hm : heap.Supplies m) {org : Layout L} (ho : makeOrganizer a.layout = .ok org)
    {f : Frame} (hf : Frame.new a.freq a.start a.stop = .ok f) {ps : List (Piece L)} {m' : Supplies L}
    (hr : Layout.readIt f a.defaultLabel org { first := 0, last := (f.n : Int) - 1 } m = .ok (ps, m')) :
    Tiles 0 ((f.n : Int) - 1) (ps.map Piece.span) ∧ ∃ heap', heap'.Supplies m' ∧ ∀ heap0 m0, Heap.Shows heap0 m0 →
      (∃ e, Timeboard.newIt a heap = .error e ∧ Timeboard.new { a with layout := plainLayout f ps } heap0 = .error e) ∨
      ∃ tb, Timeboard.newIt a heap = .ok (tb, heap') ∧ Timeboard.new { a with layout := plainLayout f ps } heap0 = .ok (tb, heap0) := by
  have hn : 0 < f.n := Frame.new_valid hf
  have h1 := Layout.runIt_reads f a.defaultLabel org { first := 0, last := (f.n : Int) - 1 }
    { labels := fun _ => a.defaultLabel, mask := fun _ => true, heap := heap } m (by simp; omega) ⟨by simp, by simp only; omega⟩ hm
    (fun i _ _ => ⟨rfl, rfl⟩)
  unfold OutcomeOf at h1
  rw [hr] at h1
  obtain ⟨st, h1, hs, hog⟩ := h1
  refine ⟨hog.1, st.heap, hs, ?_⟩
  intro heap0 m0 hm0
  have ht := Timeline.new_plain hn hog a.refEnd a.defaultLabel heap0 m0 hm0
  have hi : Timeline.newIt f org a.refEnd a.defaultLabel heap = .ok
      ({ frame := f, wsIdx := nonzeroMask st.mask f.n, labels := (nonzeroMask st.mask f.n).map st.labels
         frameband := maskedCounter st.mask f.n 0 0, refEnd := a.refEnd }, st.heap) := by
    unfold Timeline.newIt
    simp only [h1]
  have hmk : makeOrganizer (plainLayout f ps) = .ok (plainLayout f ps) := rfl
  unfold Timeboard.newIt Timeboard.new
  simp only [ho, hmk, hf, hi, ht]
  by_cases hw : a.worktimeSource ∉ ["duration", "labels"]
  · left; exact ⟨.valueError, by rw [if_pos hw], by rw [if_pos hw]⟩
  · rw [if_neg hw, if_neg hw]
    split
    · rename_i e he; left; exact ⟨e, rfl, by simp only [he]⟩
    · rename_i tl he; right; exact ⟨_, rfl, by simp only [he]⟩

theorem heap_shows_empty : Heap.Shows (fun _ => Cycle.start ([] : List L)) (fun _ => ([], 0)) := fun _ => .inl ⟨rfl, rfl, rfl⟩

/-- A new timeboard, its layout being an organizer. -/
theorem Timeboard.newIt_reads_organizer (a : Args L) (heap : Heap L) (m : Supplies L) (hm : heap.Supplies m) (org : Layout L)
    (ho : makeOrganizer a.layout = .ok org) :
    match a.readLayoutIt org m with
    | .error e => Timeboard.newIt a heap = .error e
    | .ok (f, ps, m') => ∃ tb heap', Timeboard.newIt a heap = .ok (tb, heap') ∧ heap'.Supplies m' ∧ tb.ConsistsOf f ps := by
  unfold Args.readLayoutIt
  rw [Args.frame_eq]
  by_cases hw : a.worktimeSource ≠ "duration" ∧ a.worktimeSource ≠ "labels"
  · have : a.worktimeSource ∉ ["duration", "labels"] := by simp [hw]
    unfold Timeboard.newIt
    simp [hw, this, ho]
  · have hw' : ¬ a.worktimeSource ∉ ["duration", "labels"] := by
      simp only [List.mem_cons, List.not_mem_nil, or_false]
      intro hh
      apply hw
      exact ⟨fun e => hh (.inl e), fun e => hh (.inr e)⟩
    rw [if_neg hw]
    cases hf : Frame.new a.freq a.start a.stop with
    | error e => simp only; unfold Timeboard.newIt; simp only [ho, hf]; rw [if_neg hw']
    | ok f =>
      simp only
      have hn : 0 < f.n := Frame.new_valid hf
      cases hl : Layout.readIt f a.defaultLabel org { first := 0, last := (f.n : Int) - 1 } m with
      | error e =>
        have h1 := Layout.runIt_reads f a.defaultLabel org { first := 0, last := (f.n : Int) - 1 }
          { labels := fun _ => a.defaultLabel, mask := fun _ => true, heap := heap } m (by simp; omega) ⟨by simp, by simp only; omega⟩ hm
          (fun i _ _ => ⟨rfl, rfl⟩)
        unfold OutcomeOf at h1
        rw [hl] at h1
        simp only at h1 ⊢
        unfold Timeboard.newIt Timeline.newIt
        simp only [ho, hf]
        rw [if_neg hw', h1]
      | ok r =>
        obtain ⟨ps, m'⟩ := r
        obtain ⟨ht, heap', hs, hp⟩ := Timeboard.newIt_plain a heap m hm ho hf hl
        have hp := hp _ _ heap_shows_empty
        have hc := Timeboard.new_reads { a with layout := plainLayout f ps } _ _ heap_shows_empty
        have hrd : Args.read { a with layout := plainLayout f ps } (fun _ => ([], 0)) =
            match amendPieces f a.amendments ps with
            | .error e => .error e
            | .ok qs => .ok (f, qs, fun _ => ([], 0)) := by
          unfold Args.read
          simp only [plainLayout]
          unfold Args.readLayout
          rw [if_neg hw, Args.frame_eq]
          simp only [hf]
          have := plainLayout_read hn a.defaultLabel ht (fun _ => ([], 0))
          rw [plainLayout] at this
          rw [this]
          rfl
        rw [hrd] at hc
        simp only
        cases hq : amendPieces f a.amendments ps with
        | error e =>
          rw [hq] at hc
          simp only at hc ⊢
          rcases hp with ⟨e', h1, h2⟩ | ⟨tb, h1, h2⟩
          · rw [hc] at h2; cases h2; exact h1
          · rw [hc] at h2; cases h2
        | ok qs =>
          rw [hq] at hc
          simp only at hc ⊢
          obtain ⟨tb', h', g1, g2, g3⟩ := hc
          rcases hp with ⟨e', h1, h2⟩ | ⟨tb, h1, h2⟩
          · rw [g1] at h2; cases h2
          · rw [g1] at h2; cases h2
            exact ⟨_, _, h1, hs, g3⟩

theorem Layout.readIt_whole {f : Frame} (hn : 0 < f.n) (dl : L) (xs : List L) (m : Supplies L) :
    Layout.readIt f dl (.organizer (.marks []) [.pattern (.list xs)]) { first := 0, last := (f.n : Int) - 1 } m =
      Layout.readIt f dl (.pattern (.list xs)) { first := 0, last := (f.n : Int) - 1 } m := by
  have hc := Frame.cut_nil (f := f) (s := { first := 0, last := (f.n : Int) - 1 }) ⟨by simp, by simp only; omega, by simp only; omega⟩
  conv => lhs; unfold Layout.readIt
  simp only [hc, Layout.readItAll, List.isEmpty_cons, Bool.false_eq_true, if_false, readInTurns, cyclic, List.length_cons, List.length_nil,
    Nat.zero_mod, List.getElem?_cons_zero]
  cases Layout.readIt f dl (.pattern (.list xs)) { first := 0, last := (f.n : Int) - 1 } m with
  | error e => rfl
  | ok r => simp

theorem Args.readLayoutIt_whole (a : Args L) (xs : List L) (m : Supplies L) :
    a.readLayoutIt (.organizer (.marks []) [.pattern (.list xs)]) m = a.readLayoutIt (.pattern (.list xs)) m := by
  unfold Args.readLayoutIt
  rw [Args.frame_eq]
  split
  · rfl
  · split
    · rfl
    · rename_i f hf
      rw [Layout.readIt_whole (Frame.new_valid hf)]

/-- A new timeboard. -/
theorem Timeboard.newIt_reads (a : Args L) (heap : Heap L) (m : Supplies L) (hm : heap.Supplies m) :
    match a.readIt m with
    | .error e => Timeboard.newIt a heap = .error e
    | .ok (f, ps, m') => ∃ tb heap', Timeboard.newIt a heap = .ok (tb, heap') ∧ heap'.Supplies m' ∧ tb.ConsistsOf f ps := by
  have h := Timeboard.newIt_reads_organizer a heap m hm
  unfold Args.readIt
  cases hl : a.layout with
  | label l => simp only; unfold Timeboard.newIt; rw [hl]; rfl
  | pattern p =>
    cases p with
    | rp id => simp only; unfold Timeboard.newIt; rw [hl]; rfl
    | list xs =>
      simp only
      rw [← Args.readLayoutIt_whole]
      exact h _ (by rw [hl]; rfl)
  | organizer c es => exact h _ (by rw [hl]; rfl)
  | organizerRP c id => exact h _ (by rw [hl]; rfl)

end TB
