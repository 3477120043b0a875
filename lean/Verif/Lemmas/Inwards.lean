import Verif.Spec.Inwards
import Verif.Lemmas.AnyDepth
/-! Pieces and the way from the outside inwards. -/
namespace TB
variable {L : Type}

/-- The labels of the RememberingPatterns. -/
def Memory.names (m : Memory L) : Nat → List L := fun id => (m id).1

theorem Memory.names_draw (m : Memory L) (id n : Nat) : (m.draw id n).names = m.names := by
  funext j
  unfold Memory.names Memory.draw
  split
  · rename_i h; rw [h]
  · rfl

/-- The piece is within the span and is the one the layout leads to, for all its times. -/
def Frame.Reached (f : Frame) (dl : L) (rp : Nat → List L) (l : Layout L) (s : Span) (q : Piece L) : Prop :=
  s.first ≤ q.first ∧ q.first ≤ q.last ∧ q.last ≤ s.last ∧
  ∃ ls, q.label ∈ ls ∧ ∀ t, f.unitStart q.first ≤ t → t ≤ f.unitEnd q.last → f.Leads dl rp l s t q.first q.last ls

theorem readInTurns_reached {rs : List (Reader L)} {rp : Nat → List L} {Q : Nat → Span → Piece L → Prop} : ∀ (ss : List Span) (n : Nat) (m : Memory L),
    m.names = rp →
    (∀ k x r m ps m', ss[k]? = some x → cyclic rs (n + k) = some r → m.names = rp → r x m = .ok (ps, m') →
      m'.names = rp ∧ ∀ q ∈ ps, Q (n + k) x q) → ∀ ps m', readInTurns rs n ss m = .ok (ps, m') →
    m'.names = rp ∧ ∀ q ∈ ps, ∃ k x, ss[k]? = some x ∧ Q (n + k) x q
  | [], n, m, hn, _, _, _, h => by
    unfold readInTurns at h
    cases h
    exact ⟨hn, fun q hq => nomatch hq⟩
  | s :: ss, n, m, hn, hr, ps, m', h => by
    unfold readInTurns at h
    cases hc : cyclic rs n with
    | none => rw [hc] at h; cases h; exact ⟨hn, fun q hq => nomatch hq⟩
    | some r =>
      rw [hc] at h
      simp only at h
      cases h1 : r s m with
      | error e => rw [h1] at h; cases h
      | ok z =>
        obtain ⟨ps1, m1⟩ := z
        obtain ⟨e1, e2⟩ := hr 0 s r m ps1 m1 rfl hc hn h1
        rw [h1] at h
        simp only at h
        cases h2 : readInTurns rs (n + 1) ss m1 with
        | error e => rw [h2] at h; cases h
        | ok z =>
          obtain ⟨ps2, m2⟩ := z
          rw [h2] at h
          cases h
          obtain ⟨f1, f3⟩ := readInTurns_reached ss (n + 1) m1 e1 (by
            intro k x r m ps m' hk hc hn hrr
            have := hr (k + 1) x r m ps m' (by simpa using hk) (by rw [← hc]; congr 1; omega) hn hrr
            rw [show n + 1 + k = n + (k + 1) by omega]
            exact this) ps2 _ h2
          refine ⟨f1, ?_⟩
          intro q hq
          rcases List.mem_append.1 hq with hq | hq
          · exact ⟨0, s, rfl, e2 q hq⟩
          · obtain ⟨k, x, k1, k2⟩ := f3 q hq
            exact ⟨k + 1, x, by simpa using k1, by rw [show n + (k + 1) = n + 1 + k by omega]; exact k2⟩

theorem mem_unitPieces {dl : L} {xs : List L} {p : Nat} {s : Span} {q : Piece L} (h : q ∈ unitPieces dl xs p s) :
    ∃ i : Nat, s.first + i ≤ s.last ∧ q = { first := s.first + i, last := s.first + i, label := (cyclic xs (p + i)).getD dl } := by
  unfold unitPieces at h
  rw [List.mem_map] at h
  obtain ⟨i, i1, rfl⟩ := h
  rw [List.mem_range] at i1
  exact ⟨i, by omega, rfl⟩

theorem unitPieces_default {f : Frame} {dl : L} {rp : Nat → List L} {l : Layout L} {s : Span} {p : Nat}
    (h : ∀ i t, f.UnitAt i t → f.Leads dl rp l s t i i [dl]) : ∀ q ∈ unitPieces dl [] p s, f.Reached dl rp l s q := by
  intro q hq
  obtain ⟨i, i1, rfl⟩ := mem_unitPieces hq
  refine ⟨by simp only; omega, Int.le_refl _, i1, [dl], ?_, fun t t1 t2 => h _ t ⟨t1, t2⟩⟩
  simp [cyclic]

theorem cyclic_getD_mem {xs : List L} (hx : xs ≠ []) (n : Nat) (dl : L) : (cyclic xs n).getD dl ∈ xs := by
  obtain ⟨x, h⟩ := cyclic_some hx n
  rw [h]
  exact List.mem_of_getElem? h

mutual
/-- The pieces read of a layout are those it leads to. -/
theorem Layout.read_reached {f : Frame} (dl : L) : ∀ (l : Layout L) (s : Span), s.Within f.n → ∀ (m : Memory L) ps m',
    Layout.read f dl l s m = .ok (ps, m') → m'.names = m.names ∧ ∀ q ∈ ps, f.Reached dl m.names l s q
  | .label l, s, hs, m, ps, m', h => by
    unfold Layout.read at h
    cases h
    refine ⟨rfl, fun q hq => ?_⟩
    rw [List.mem_singleton] at hq
    subst hq
    exact ⟨Int.le_refl _, hs.2.1, Int.le_refl _, [l], by simp, fun t _ _ => .label⟩
  | .pattern (.list xs), s, hs, m, ps, m', h => by
    unfold Layout.read at h
    split at h
    · cases h
    · rename_i hk
      cases h
      refine ⟨rfl, ?_⟩
      by_cases hx : xs = []
      · subst hx
        exact unitPieces_default (fun i t hi => .unlabelled hi)
      · intro q hq
        obtain ⟨i, i1, rfl⟩ := mem_unitPieces hq
        obtain ⟨l, hl⟩ := cyclic_some hx (s.skipLeft.toNat + i)
        refine ⟨by simp only; omega, Int.le_refl _, i1, [l], by simp [hl], fun t t1 t2 => .unit ⟨t1, t2⟩ ?_⟩
        simp only
        rw [show (s.skipLeft + (s.first + (i : Int) - s.first)).toNat = s.skipLeft.toNat + i by omega]
        exact hl
  | .pattern (.rp id), s, hs, m, ps, m', h => by
    unfold Layout.read at h
    split at h
    · cases h
    · cases h
      refine ⟨Memory.names_draw _ _ _, ?_⟩
      by_cases hx : (m id).1 = []
      · rw [hx]
        exact unitPieces_default (fun i t hi => .rememberingNone hi hx)
      · intro q hq
        obtain ⟨i, i1, rfl⟩ := mem_unitPieces hq
        exact ⟨by simp only; omega, Int.le_refl _, i1, (m id).1, cyclic_getD_mem hx _ _, fun t t1 t2 => .remembering ⟨t1, t2⟩ hx⟩
  | .organizer cut elems, s, hs, m, ps, m', h => by
    unfold Layout.read at h
    cases hc : f.cut s cut with
    | error e => rw [hc] at h; cases h
    | ok ss =>
      rw [hc] at h
      simp only at h
      by_cases he : elems = []
      · subst he
        simp only [List.isEmpty_nil, if_true] at h
        cases h
        exact ⟨rfl, unitPieces_default (fun i t hi => .bare hi)⟩
      · simp only [List.isEmpty_iff, he, if_false] at h
        obtain ⟨ht, hin⟩ := Frame.cut_within hs hc
        have ih := Layout.readAll_reached (f := f) dl elems
        rw [Layout.readAll_eq] at h
        obtain ⟨e1, e2⟩ := readInTurns_reached (rp := m.names) (Q := fun n x q => ∃ e, cyclic elems n = some e ∧ f.Reached dl m.names e x q) ss 0 m rfl (by
          intro k x r m1 ps m' hk hcy hn hrr
          rw [cyclic_map, Option.map_eq_some_iff] at hcy
          obtain ⟨e, he, rfl⟩ := hcy
          obtain ⟨f1, f2⟩ := ih e (mem_of_cyclic he) x (hin x (List.mem_of_getElem? hk)) m1 ps m' hrr
          rw [hn] at f1 f2
          exact ⟨f1, fun q hq => ⟨e, he, f2 q hq⟩⟩) ps m' h
        refine ⟨e1, fun q hq => ?_⟩
        obtain ⟨k, x, k1, e, k2, k3, k4, k5, ls, k6, k7⟩ := e2 q hq
        rw [Nat.zero_add] at k2
        have hxm := ht.mem (List.mem_of_getElem? k1)
        refine ⟨by omega, k4, by omega, ls, k6, fun t t1 t2 => ?_⟩
        refine .part hc k1 ?_ ?_ k2 (k7 t t1 t2)
        · exact Int.le_trans (Frame.unitStart_monotone k3) t1
        · have := Frame.unitStart_monotone (f := f) (show q.last + 1 ≤ x.last + 1 by omega)
          rw [Frame.unitEnd_eq] at t2 ⊢
          omega
  | .organizerRP cut id, s, hs, m, ps, m', h => by
    unfold Layout.read at h
    cases hc : f.cut s cut with
    | error e => rw [hc] at h; cases h
    | ok ss =>
      rw [hc] at h
      simp only at h
      obtain ⟨ht, hin⟩ := Frame.cut_within hs hc
      by_cases hx : (m id).1 = []
      · simp only [hx, List.isEmpty_nil, if_true] at h
        cases h
        exact ⟨rfl, unitPieces_default (fun i t hi => .shiftNone hi hx)⟩
      · simp only [List.isEmpty_iff, hx, if_false] at h
        cases h
        refine ⟨Memory.names_draw _ _ _, fun q hq => ?_⟩
        unfold spanPieces at hq
        rw [List.mem_map] at hq
        obtain ⟨⟨x, k⟩, hk, rfl⟩ := hq
        have hxs : x ∈ ss := by
          rw [List.mem_zipIdx_iff_getElem?] at hk
          exact List.mem_of_getElem? hk
        have hm := ht.mem hxs
        exact ⟨by simp only; omega, (hin x hxs).2.1, by simp only; omega, (m id).1, cyclic_getD_mem hx _ _, fun t t1 t2 => .shift hc hxs t1 t2 hx⟩

theorem Layout.readAll_reached {f : Frame} (dl : L) : ∀ (ls : List (Layout L)), ∀ l ∈ ls, ∀ (s : Span), s.Within f.n → ∀ (m : Memory L) ps m',
    Layout.read f dl l s m = .ok (ps, m') → m'.names = m.names ∧ ∀ q ∈ ps, f.Reached dl m.names l s q
  | [], l, hl => nomatch hl
  | e :: es, l, hl => by
    have h1 := Layout.read_reached (f := f) dl e
    have h2 := Layout.readAll_reached (f := f) dl es
    rcases List.mem_cons.1 hl with h | h
    · rw [h]; exact h1
    · exact h2 l h
end

theorem Frame.unitAt_iff {f : Frame} {i : Int} {t : Time} : f.UnitAt i t ↔ i = f.unitNo t := by
  unfold Frame.UnitAt
  have h1 := f.unitStart_le_at i t
  have h2 := f.unitStart_le_at (i + 1) t
  rw [Frame.unitEnd_eq]
  omega

theorem Frame.UnitAt.unique {f : Frame} {i j : Int} {t : Time} (h : f.UnitAt i t) (h' : f.UnitAt j t) : i = j := by
  rw [Frame.unitAt_iff] at h h'
  omega

theorem Frame.part_unique {f : Frame} {s : Span} (hs : s.Within f.n) {cut : Cut} {ss : List Span} (hcut : f.cut s cut = .ok ss) {t : Time} {k k' : Nat} {x x' : Span}
    (hx : ss[k]? = some x) (h1 : f.unitStart x.first ≤ t) (h2 : t ≤ f.unitEnd x.last)
    (hx' : ss[k']? = some x') (h1' : f.unitStart x'.first ≤ t) (h2' : t ≤ f.unitEnd x'.last) : k = k' ∧ x = x' := by
  obtain ⟨ht, hin⟩ := Frame.cut_within hs hcut
  have key : ∀ x : Span, f.unitStart x.first ≤ t → t ≤ f.unitEnd x.last → x.first ≤ f.unitNo t ∧ f.unitNo t ≤ x.last := by
    intro x a b
    have h1 := f.unitStart_le_at x.first t
    have h2 := f.unitStart_le_at (x.last + 1) t
    rw [Frame.unitEnd_eq] at b
    omega
  obtain ⟨a1, a2⟩ := key _ h1 h2
  obtain ⟨b1, b2⟩ := key _ h1' h2'
  have := ht.disjoint hx hx' a1 a2 b1 b2
  subst this
  rw [hx] at hx'
  cases hx'
  exact ⟨rfl, rfl⟩

/-- The way inwards leads to one workshift only. -/
theorem Frame.leads_unique {f : Frame} {dl : L} {rp : Nat → List L} {l : Layout L} {s : Span} {t : Time} {a b : Int} {ls : List L}
    (h : f.Leads dl rp l s t a b ls) (hs : s.Within f.n) : ∀ {a' b' ls'}, f.Leads dl rp l s t a' b' ls' → a = a' ∧ b = b' ∧ ls = ls' := by
  induction h with
  | label => intro a' b' ls' h'; cases h'; exact ⟨rfl, rfl, rfl⟩
  | unit hi hl =>
    intro a' b' ls' h'
    cases h' with
    | unit hi' hl' =>
      cases hi.unique hi'
      rw [hl] at hl'
      cases hl'
      exact ⟨rfl, rfl, rfl⟩
    | unlabelled hi' => simp [cyclic] at hl
  | unlabelled hi =>
    intro a' b' ls' h'
    cases h' with
    | unit hi' hl' => simp [cyclic] at hl'
    | unlabelled hi' => cases hi.unique hi'; exact ⟨rfl, rfl, rfl⟩
  | remembering hi hn =>
    intro a' b' ls' h'
    cases h' with
    | remembering hi' hn' => cases hi.unique hi'; exact ⟨rfl, rfl, rfl⟩
    | rememberingNone hi' hn' => exact absurd hn' hn
  | rememberingNone hi hn =>
    intro a' b' ls' h'
    cases h' with
    | remembering hi' hn' => exact absurd hn hn'
    | rememberingNone hi' hn' => cases hi.unique hi'; exact ⟨rfl, rfl, rfl⟩
  | part hcut hx h1 h2 he hp ih =>
    intro a' b' ls' h'
    cases h' with
    | part hcut' hx' h1' h2' he' hp' =>
      rw [hcut] at hcut'
      cases hcut'
      obtain ⟨rfl, rfl⟩ := Frame.part_unique hs hcut hx h1 h2 hx' h1' h2'
      rw [he] at he'
      cases he'
      exact ih ((Frame.cut_within hs hcut).2 _ (List.mem_of_getElem? hx)) hp'
    | bare hi' => simp [cyclic] at he
  | bare hi =>
    intro a' b' ls' h'
    cases h' with
    | part hcut' hx' h1' h2' he' hp' => simp [cyclic] at he'
    | bare hi' => cases hi.unique hi'; exact ⟨rfl, rfl, rfl⟩
  | shift hcut hx h1 h2 hn =>
    intro a' b' ls' h'
    cases h' with
    | shift hcut' hx' h1' h2' hn' =>
      rw [hcut] at hcut'
      cases hcut'
      obtain ⟨k, hk⟩ := List.mem_iff_getElem?.1 hx
      obtain ⟨k', hk'⟩ := List.mem_iff_getElem?.1 hx'
      obtain ⟨_, rfl⟩ := Frame.part_unique hs hcut hk h1 h2 hk' h1' h2'
      exact ⟨rfl, rfl, rfl⟩
    | shiftNone hi' hn' => exact absurd hn' hn
  | shiftNone hi hn =>
    intro a' b' ls' h'
    cases h' with
    | shift hcut' hx' h1' h2' hn' => exact absurd hn hn'
    | shiftNone hi' hn' => cases hi.unique hi'; exact ⟨rfl, rfl, rfl⟩

/-- The workshift is within the span. -/
theorem Frame.Leads.within {f : Frame} {dl : L} {rp : Nat → List L} {l : Layout L} {s : Span} {t : Time} {a b : Int} {ls : List L}
    (h : f.Leads dl rp l s t a b ls) (hs : s.Within f.n) (t1 : f.unitStart s.first ≤ t) (t2 : t ≤ f.unitEnd s.last) : s.first ≤ a ∧ b ≤ s.last := by
  have key : ∀ {s : Span}, f.unitStart s.first ≤ t → t ≤ f.unitEnd s.last → s.first ≤ f.unitNo t ∧ f.unitNo t ≤ s.last := by
    intro x a b
    have h1 := f.unitStart_le_at x.first t
    have h2 := f.unitStart_le_at (x.last + 1) t
    rw [Frame.unitEnd_eq] at b
    omega
  induction h with
  | label => exact ⟨Int.le_refl _, Int.le_refl _⟩
  | unit hi _ => rw [Frame.unitAt_iff] at hi; rw [hi]; exact key t1 t2
  | unlabelled hi => rw [Frame.unitAt_iff] at hi; rw [hi]; exact key t1 t2
  | remembering hi _ => rw [Frame.unitAt_iff] at hi; rw [hi]; exact key t1 t2
  | rememberingNone hi _ => rw [Frame.unitAt_iff] at hi; rw [hi]; exact key t1 t2
  | part hcut hx h1 h2 _ _ ih =>
    obtain ⟨ht, hin⟩ := Frame.cut_within hs hcut
    have hm := List.mem_of_getElem? hx
    have := ht.mem hm
    have := ih (hin _ hm) h1 h2 key
    omega
  | bare hi => rw [Frame.unitAt_iff] at hi; rw [hi]; exact key t1 t2
  | shift hcut hx _ _ _ =>
    have := (Frame.cut_within hs hcut).1.mem hx
    omega
  | shiftNone hi _ => rw [Frame.unitAt_iff] at hi; rw [hi]; exact key t1 t2

/-- The workshift is within each span on the way. -/
theorem Frame.Passes.holds {f : Frame} {dl : L} {rp : Nat → List L} {l : Layout L} {s y : Span} {t : Time} (h : f.Passes l s t y) {a b : Int} {ls : List L}
    (hl : f.Leads dl rp l s t a b ls) (hs : s.Within f.n) (t1 : f.unitStart s.first ≤ t) (t2 : t ≤ f.unitEnd s.last) : y.first ≤ a ∧ b ≤ y.last := by
  induction h with
  | here => exact hl.within hs t1 t2
  | part hcut hx h1 h2 he _ ih =>
    cases hl with
    | part hcut' hx' h1' h2' he' hp' =>
      rw [hcut] at hcut'
      cases hcut'
      obtain ⟨rfl, rfl⟩ := Frame.part_unique hs hcut hx h1 h2 hx' h1' h2'
      rw [he] at he'
      cases he'
      exact ih hp' ((Frame.cut_within hs hcut).2 _ (List.mem_of_getElem? hx)) h1 h2
    | bare _ => simp [cyclic] at he

end TB
