import Verif.Lemmas.Layout4
import Verif.Lemmas.MarkerAt
import Verif.Lemmas.Dangle
import Verif.Lemmas.Notation
import Verif.Spec.Construct
/-! Why organizing a frame can fail. -/
namespace TB
variable {L : Type}

theorem Layout.Within.trans {x y z : Layout L} (h1 : Layout.Within x y) (h2 : Layout.Within y z) : Layout.Within x z := by
  induction h2 with
  | here => exact h1
  | elem hm _ ih => exact .elem hm ih

theorem Layout.Fault.elem {f : Frame} {cut : Cut} {elems : List (Layout L)} {l : Layout L} {e : Err} (hl : l ∈ elems)
    (h : l.Fault f e) : Layout.Fault f (.organizer cut elems) e := by
  have hu : ∀ m, l.UsesMarker m → Layout.UsesMarker (.organizer cut elems) m := by
    rintro m (⟨es, h⟩ | ⟨i, h⟩)
    · exact .inl ⟨es, .elem hl h⟩
    · exact .inr ⟨i, .elem hl h⟩
  rcases h with ⟨m, h1, h2⟩ | ⟨m, h1, h2⟩ | ⟨⟨m, p, es, h1, h2⟩, h3⟩
  · exact .inl ⟨m, hu m h1, h2⟩
  · exact .inr (.inl ⟨m, hu m h1, h2⟩)
  · exact .inr (.inr ⟨⟨m, p, es, .elem hl h1, h2⟩, h3⟩)

theorem collectAts_error {pi : Frame} {freq : Freq} {e : Err} : ∀ {ats : List (Frame → Freq → Except Err (List Time))},
    collectAts pi freq ats = .error e → ∃ g ∈ ats, g pi freq = .error e := by
  intro ats
  induction ats with
  | nil => intro h; simp [collectAts] at h
  | cons g gs ih =>
    intro h
    simp only [collectAts, Bind.bind, Except.bind, pure, Except.pure] at h
    cases hg : g pi freq with
    | error e' => rw [hg] at h; simp at h; subst h; exact ⟨g, by simp, hg⟩
    | ok pts =>
      rw [hg] at h
      simp only at h
      cases hc : collectAts pi freq gs with
      | error e' =>
        rw [hc] at h; simp at h; subst h
        obtain ⟨g', h1, h2⟩ := ih hc
        exact ⟨g', by simp [h1], h2⟩
      | ok r => rw [hc] at h; simp at h

theorem Frame.stencilFor_error {f : Frame} {m : Marker} {a b : Time} {e : Err} (hab : a ≤ b) (h : f.stencilFor m a b = .error e) :
    ∃ g ∈ m.ats, ∃ pi : Frame, Frame.new m.each (a - getFreqDelta m.each) (b + getFreqDelta m.each) = .ok pi ∧ g pi f.freq = .error e := by
  unfold Frame.stencilFor at h
  simp only [Bind.bind, Except.bind, pure, Except.pure] at h
  split at h
  · cases hf : Frame.new m.each a b with
    | error e' =>
      have := (Frame.new_error_iff.1 hf).2
      have := m.each.base.ordOf_mono hab
      omega
    | ok F => rw [hf] at h; simp at h
  · cases hf : Frame.new m.each (a - getFreqDelta m.each) (b + getFreqDelta m.each) with
    | error e' =>
      have := (Frame.new_error_iff.1 hf).2
      have hd := getFreqDelta_pos m.each
      have := m.each.base.ordOf_mono (show a - getFreqDelta m.each ≤ b + getFreqDelta m.each by omega)
      omega
    | ok pi =>
    rw [hf] at h
    simp only at h
    cases hc : collectAts pi f.freq m.ats with
    | error e' =>
      rw [hc] at h; simp at h; subst h
      obtain ⟨g, h3, h4⟩ := collectAts_error hc
      exact ⟨g, h3, pi, rfl, h4⟩
    | ok r =>
      rw [hc] at h
      simp only at h
      split at h <;> simp at h

theorem Frame.cutSpan_error {f : Frame} {cut : Cut} {s : Span} {e : Err} (h0 : 0 ≤ s.first) (h1 : s.first ≤ s.last) (h2 : s.last < f.n)
    (h : f.cutSpan cut s = .error e) :
    ∃ m, cut = .marker m ∧ ((checkGroupbyFreq f.freq m.each = false ∧ e = .unacceptablePeriod) ∨
      ∃ g ∈ m.ats, ∃ pi : Frame, m.LooksAt f s.first s.last pi ∧ g pi f.freq = .error e) := by
  cases cut with
  | marks ts =>
    obtain ⟨ss, hss⟩ := Frame.createSubspans_exists ts h0 h1 h2
    simp only [Frame.cutSpan, Frame.partitionAtMarks, hss] at h
    cases h
  | marker m =>
    refine ⟨m, rfl, ?_⟩
    simp only [Frame.cutSpan] at h
    by_cases hc : checkGroupbyFreq f.freq m.each = true
    · right
      cases hst : f.stencilFor m (f.unitStart s.first) (f.unitEnd s.last) with
      | error e' =>
        rw [Frame.partitionWithMarker_error hc h0 h1 h2 hst] at h
        cases h
        obtain ⟨g, g1, pi, g2, g3⟩ := Frame.stencilFor_error (Frame.unitStart_le_unitEnd' h1) hst
        exact ⟨g, g1, pi, ⟨h0, h1, h2, g2⟩, g3⟩
      | ok o =>
        cases o with
        | none => rw [Frame.partitionWithMarker_none hc h0 h1 h2 hst] at h; cases h
        | some st =>
          obtain ⟨ss, hss, _⟩ := Frame.partitionWithMarker_some hc h0 h1 h2 hst
          rw [hss] at h; cases h
    · left
      simp only [Bool.not_eq_true] at hc
      refine ⟨hc, ?_⟩
      unfold Frame.partitionWithMarker at h
      simp [Bind.bind, Except.bind, throw, throwThe, MonadExceptOf.throw, hc] at h
      exact h.symm

theorem Frame.skipBefore_nonneg {f : Frame} {s : Span} {st : Stencil} {t : Time} (h : st.leftUndefined = false) : 0 ≤ f.skipBefore s st t := by
  unfold Frame.skipBefore
  rw [h]
  simp only [Bool.false_eq_true, if_false]
  split
  · unfold countDifference; omega
  · omega

/-- When the beginning of the first span is not known. -/
theorem Frame.stencilFor_undefined {f : Frame} {m : Marker} {a b : Time} {o : Option Stencil} (hab : a < b) (hm : m.ats ≠ [])
    (h : f.stencilFor m a b = .ok o) :
    ∃ pi, Frame.new m.each (a - getFreqDelta m.each) (b + getFreqDelta m.each) = .ok pi ∧
      ((∀ st, o = some st → st.leftUndefined = true) ↔ ∀ how ∈ m.ats, ∃ ts, how pi f.freq = .ok ts ∧ ∀ t ∈ ts, a < t) := by
  unfold Frame.stencilFor at h
  rw [if_neg (by simpa using hm)] at h
  simp only [Bind.bind, Except.bind, pure, Except.pure] at h
  cases hf : Frame.new m.each (a - getFreqDelta m.each) (b + getFreqDelta m.each) with
  | error e => rw [hf] at h; cases h
  | ok pi =>
    refine ⟨pi, rfl, ?_⟩
    rw [hf] at h
    simp only at h
    cases hc : collectAts pi f.freq m.ats with
    | error e => rw [hc] at h; cases h
    | ok cand =>
      rw [hc] at h
      simp only at h
      have hok := (collectAts_ok_iff pi f.freq m.ats).2.1 ⟨cand, hc⟩
      have hmem := (collectAts_ok_iff pi f.freq m.ats).1 cand hc
      have hsp := pairwise_sortList cand
      have key : (∀ how ∈ m.ats, ∃ ts, how pi f.freq = .ok ts ∧ ∀ t ∈ ts, a < t) ↔ ∀ t ∈ cand, a < t := by
        constructor
        · intro hh t ht
          obtain ⟨g, hg, p, hp, htp⟩ := (hmem t).1 ht
          obtain ⟨ts, h1, h2⟩ := hh g hg
          rw [hp] at h1; cases h1
          exact h2 t htp
        · intro hh how hw
          obtain ⟨p, hp⟩ := hok how hw
          exact ⟨p, hp, fun t ht => hh t ((hmem t).2 ⟨how, hw, p, hp, ht⟩)⟩
      rw [key]
      by_cases hx : ∃ x ∈ sortList cand, x ≤ a
      · obtain ⟨x, h1, h2, h3, _⟩ := sliceAtPoints_head hsp hab hx
        have hn : ¬ ∀ t ∈ cand, a < t := fun hh => by
          have := hh x ((mem_sortList x cand).1 h2); omega
        simp only [hn, iff_false]
        rw [h1] at h
        have hl : ∃ y, (sliceAtPoints (sortList cand) a b).getLast? = some y := by
          cases hg : (sliceAtPoints (sortList cand) a b).getLast? with
          | some y => exact ⟨y, rfl⟩
          | none => rw [List.getLast?_eq_none_iff] at hg; rw [hg] at h1; cases h1
        obtain ⟨y, hy⟩ := hl
        rw [hy] at h
        simp only [Except.ok.injEq] at h
        intro hh
        have := hh _ h.symm
        simp only [decide_eq_true_eq] at this
        omega
      · have hall : ∀ t ∈ cand, a < t := fun t ht => by
          refine Int.not_le.1 (fun hle => hx ⟨t, (mem_sortList t cand).2 ht, hle⟩)
        refine ⟨fun _ => hall, fun _ st hst => ?_⟩
        subst hst
        split at h
        · rename_i a0 a1 h0 _
          simp only [Except.ok.injEq, Option.some.injEq] at h
          subst h
          have := hall a0 ((mem_sortList a0 cand).1 (sliceAtPoints_sub (List.mem_of_mem_head? (by rw [h0]; rfl))))
          simpa using this
        · cases h

/-- Only markers with `at` make spans whose beginning is not known, it is then the first span and there is no mark before it. -/
theorem Frame.cutSpan_skip {f : Frame} {cut : Cut} {s x : Span} {ss : List Span} (h : f.cutSpan cut s = .ok (x :: ss)) :
    (∀ y ∈ ss, 0 ≤ y.skipLeft) ∧ (0 ≤ x.skipLeft ∨ ∃ m, cut = .marker m ∧ m.ats ≠ [] ∧ ∃ pi, m.LooksAt f s.first s.last pi ∧
      ∀ how ∈ m.ats, ∃ ts, how pi f.freq = .ok ts ∧ ∀ t ∈ ts, f.unitStart s.first < t) := by
  cases cut with
  | marks ts =>
    obtain ⟨_, _, _, he⟩ := Frame.createSubspans_ok_iff.1 h
    have := spansBetween_skip
    refine ⟨fun y hy => ?_, .inl ?_⟩
    · rw [(spansBetween_skip _ _ _ y (by rw [← he]; simp [hy])).1]; omega
    · rw [(spansBetween_skip _ _ _ x (by rw [← he]; simp)).1]; omega
  | marker m =>
    simp only [Frame.cutSpan] at h
    have ht := Frame.partitionWithMarker_tiles h
    have hle := ht.2.2.le
    by_cases hc : checkGroupbyFreq f.freq m.each = true
    · cases hst : f.stencilFor m (f.unitStart s.first) (f.unitEnd s.last) with
      | error e => rw [Frame.partitionWithMarker_error hc ht.1 hle ht.2.1 hst] at h; cases h
      | ok o =>
        have hlook := fun hm => Frame.stencilFor_undefined (f.unitStart_lt_unitEnd hle) hm hst
        cases o with
        | none =>
          rw [Frame.partitionWithMarker_none hc ht.1 hle ht.2.1 hst] at h
          simp only [Except.ok.injEq, List.cons.injEq] at h
          obtain ⟨rfl, rfl⟩ := h
          refine ⟨by simp, .inr ⟨m, rfl, ?_⟩⟩
          have hm : m.ats ≠ [] := by
            intro hm
            have e : m = ⟨m.each, []⟩ := by cases m; simp only at hm; subst hm; rfl
            obtain ⟨st, hst', _⟩ := Frame.stencil_calendar (f := f) (each := m.each) (Frame.unitStart_le_unitEnd' (f := f) hle)
            rw [← e, hst] at hst'; cases hst'
          obtain ⟨pi, h1, h2⟩ := hlook hm
          exact ⟨hm, pi, ⟨ht.1, hle, ht.2.1, h1⟩, h2.1 (by simp)⟩
        | some st =>
          obtain ⟨ss', h1, _, h3, _⟩ := Frame.partitionWithMarker_some hc ht.1 hle ht.2.1 hst
          rw [h] at h1; cases h1
          refine ⟨fun y hy => by rw [h3.2 y hy]; omega, ?_⟩
          cases hl : st.leftUndefined with
          | false => left; rw [h3.1]; exact Frame.skipBefore_nonneg hl
          | true =>
            right
            have hm : m.ats ≠ [] := by
              intro hm
              have e : m = ⟨m.each, []⟩ := by cases m; simp only at hm; subst hm; rfl
              obtain ⟨st', hst', hl', _⟩ := Frame.stencil_calendar (f := f) (each := m.each) (Frame.unitStart_le_unitEnd' (f := f) hle)
              rw [← e, hst] at hst'; cases hst'
              rw [hl] at hl'; cases hl'
            obtain ⟨pi, h1, h2⟩ := hlook hm
            refine ⟨m, rfl, hm, pi, ⟨ht.1, hle, ht.2.1, h1⟩, h2.1 ?_⟩
            intro st' he; cases he; exact hl
    · simp only [Bool.not_eq_true] at hc
      unfold Frame.partitionWithMarker at h
      simp [Bind.bind, Except.bind, throw, throwThe, MonadExceptOf.throw, hc] at h

theorem zipRun_error {e : Err} {steps : List (Step L)} : ∀ (ss : List Span) (c : Cycle (Step L)) (st : TLState L),
    (∀ p ∈ c.saved, p ∈ steps) → (∀ p ∈ c.rest, p ∈ steps) → zipRun ss c st = .error e →
    ∃ s ∈ ss, ∃ p ∈ steps, ∃ st', p s st' = .error e := by
  intro ss
  induction ss with
  | nil => intro c st _ _ h; simp [zipRun] at h
  | cons s ss ih =>
    intro c st h1 h2 h
    unfold zipRun at h
    cases hn : c.next with
    | none => rw [hn] at h; simp at h
    | some q =>
      obtain ⟨p, c'⟩ := q
      rw [hn] at h
      simp only at h
      have hp : p ∈ steps ∧ (∀ p ∈ c'.saved, p ∈ steps) ∧ ∀ p ∈ c'.rest, p ∈ steps := by
        unfold Cycle.next at hn
        split at hn
        · rename_i x xs hr
          simp only [Option.some.injEq, Prod.mk.injEq] at hn
          obtain ⟨rfl, rfl⟩ := hn
          rw [hr] at h2
          exact ⟨h2 _ (by simp), h1, fun p hp => h2 p (by simp [hp])⟩
        · split at hn
          · cases hn
          · rename_i x xs hr
            simp only [Option.some.injEq, Prod.mk.injEq] at hn
            obtain ⟨rfl, rfl⟩ := hn
            refine ⟨h1 _ (by rw [hr]; simp), h1, fun p hp => h1 p (by rw [hr]; simp [hp])⟩
      cases he : p s st with
      | error e' => rw [he] at h; simp at h; subst h; exact ⟨s, by simp, p, hp.1, st, he⟩
      | ok st1 =>
        rw [he] at h
        obtain ⟨s', g1, g2⟩ := ih c' st1 hp.2.1 hp.2.2 h
        exact ⟨s', by simp [g1], g2⟩

theorem zipRun_error_head {e : Err} {steps : List (Step L)} {s : Span} {ss : List Span} {st : TLState L}
    (h : zipRun (s :: ss) (Cycle.start steps) st = .error e) :
    (∃ p, steps.head? = some p ∧ p s st = .error e) ∨ ∃ s' ∈ ss, ∃ p ∈ steps, ∃ st', p s' st' = .error e := by
  cases steps with
  | nil => simp [zipRun, Cycle.start, Cycle.next] at h
  | cons p ps =>
    unfold zipRun at h
    simp only [Cycle.start, Cycle.next] at h
    cases hp : p s st with
    | error e' => rw [hp] at h; cases h; exact .inl ⟨p, rfl, hp⟩
    | ok st1 =>
      rw [hp] at h
      exact .inr (zipRun_error ss _ st1 (fun q hq => hq) (fun q hq => by simp [hq]) h)

theorem zipRunRP_ok : ∀ (ss : List Span) (i : Nat) (st : TLState L) (e : Err), zipRunRP ss i st ≠ .error e := by
  intro ss
  induction ss with
  | nil => intro i st e h; simp [zipRunRP] at h
  | cons s ss ih =>
    intro i st e h
    unfold zipRunRP at h
    split at h
    · simp at h
    · simp only [makeCompound] at h
      exact ih _ _ _ h

theorem applyPattern_error {p : Pattern L} {s : Span} {st : TLState L} {e : Err} (h : applyPattern p s st = .error e) :
    s.skipLeft < 0 ∧ e = .outOfBounds := by
  unfold applyPattern at h
  split at h
  · cases h; exact ⟨by assumption, rfl⟩
  · split at h <;> cases h

mutual
theorem Layout.run_fault (f : Frame) : ∀ (l : Layout L) (s : Span) (st : TLState L) (e : Err), 0 ≤ s.first → s.first ≤ s.last → s.last < f.n →
    Layout.run f l s st = .error e → l.Fault f e ∨ (∃ p, l = .pattern p) ∧ s.skipLeft < 0 ∧ e = .outOfBounds
  | .organizer cut elems => by
    intro s st e h0 h1 h2 h
    left
    simp only [Layout.run] at h
    cases hc : f.cutSpan cut s with
    | error e' =>
      rw [hc] at h; cases h
      obtain ⟨m, rfl, hm | ⟨g, g1, pi, g2, g3⟩⟩ := Frame.cutSpan_error h0 h1 h2 hc
      · exact .inl ⟨m, .inl ⟨elems, .here⟩, hm⟩
      · exact .inr (.inl ⟨m, .inl ⟨elems, .here⟩, g, g1, _, _, pi, g2, g3⟩)
    | ok ss =>
      rw [hc] at h
      cases ss with
      | nil => simp [zipRun] at h
      | cons x ss =>
      obtain ⟨hk1, hk2⟩ := Frame.cutSpan_skip hc
      rcases zipRun_error_head h with ⟨p, hp, he⟩ | ⟨x', hx, p, hp, st', he⟩
      · have ht := (Frame.cutSpan_tiles hc).2.2.mem (List.mem_cons_self (a := x) (l := ss))
        cases elems with
        | nil => cases hp
        | cons l ls =>
          cases hp
          rcases Layout.run_fault f l _ _ _ (by omega) (by omega) (by omega) he with hf | ⟨⟨q, rfl⟩, hs, rfl⟩
          · exact hf.elem (by simp)
          · rcases hk2 with hk | ⟨m, rfl, hm, pi, h3, h4⟩
            · omega
            · exact .inr (.inr ⟨⟨m, q, ls, .here, hm, _, _, pi, h3, h4⟩, rfl⟩)
      · have ht := (Frame.cutSpan_tiles hc).2.2.mem (List.mem_cons_of_mem x hx)
        rcases Layout.runAll_fault f elems p hp _ _ _ (by omega) (by omega) (by omega) he with ⟨l, hl, hf⟩ | ⟨⟨q, hq⟩, hs, rfl⟩
        · exact hf.elem hl
        · have := hk1 x' hx
          omega
  | .organizerRP cut i => by
    intro s st e h0 h1 h2 h
    left
    simp only [Layout.run] at h
    cases hc : f.cutSpan cut s with
    | error e' =>
      rw [hc] at h; cases h
      obtain ⟨m, rfl, hm | ⟨g, g1, pi, g2, g3⟩⟩ := Frame.cutSpan_error h0 h1 h2 hc
      · exact .inl ⟨m, .inr ⟨i, .here⟩, hm⟩
      · exact .inr (.inl ⟨m, .inr ⟨i, .here⟩, g, g1, _, _, pi, g2, g3⟩)
    | ok ss =>
      rw [hc] at h
      exact absurd h (zipRunRP_ok _ _ _ _)
  | .pattern p => by
    intro s st e h0 h1 h2 h
    simp only [Layout.run] at h
    exact .inr ⟨⟨p, rfl⟩, applyPattern_error h⟩
  | .label l => by
    intro s st e h0 h1 h2 h
    simp [Layout.run, makeCompound] at h
theorem Layout.runAll_fault (f : Frame) : ∀ (ls : List (Layout L)), ∀ p ∈ Layout.runAll f ls, ∀ (s : Span) (st : TLState L) (e : Err),
    0 ≤ s.first → s.first ≤ s.last → s.last < f.n → p s st = .error e →
    (∃ l ∈ ls, l.Fault f e) ∨ (∃ q, Layout.pattern q ∈ ls) ∧ s.skipLeft < 0 ∧ e = .outOfBounds
  | [] => by simp [Layout.runAll]
  | l :: ls => by
    intro p hp s st e h0 h1 h2 h
    simp only [Layout.runAll, List.mem_cons] at hp
    rcases hp with rfl | hp
    · rcases Layout.run_fault f l _ _ _ h0 h1 h2 h with hf | ⟨⟨q, rfl⟩, hs⟩
      · exact .inl ⟨l, by simp, hf⟩
      · exact .inr ⟨⟨q, by simp⟩, hs⟩
    · rcases Layout.runAll_fault f ls p hp _ _ _ h0 h1 h2 h with ⟨l', hl', hf⟩ | ⟨⟨q, hq⟩, hs⟩
      · exact .inl ⟨l', by simp [hl'], hf⟩
      · exact .inr ⟨⟨q, by simp [hq]⟩, hs⟩
end

end TB
