import Verif.Spec.AnyDepth
import Verif.Lemmas.Seasons
import Verif.Lemmas.Nested
/-! Reading a layout made of calendar patterns. -/
namespace TB
variable {L : Type}

theorem Tiles.tail_or {a b : Int} {s : Span} {ss : List Span} (h : Tiles a b (s :: ss)) :
    s.first = a ∧ a ≤ s.last ∧ s.last ≤ b ∧ ((ss = [] ∧ s.last = b) ∨ Tiles (s.last + 1) b ss) := by
  have hm := h.mem (List.mem_cons_self ..)
  cases ss with
  | nil => exact ⟨h.1, by have := h.2; omega, by have := h.2; omega, .inl ⟨rfl, h.2.1⟩⟩
  | cons y r => exact ⟨h.1, h.2.1, by omega, .inr h.2.2⟩

/-- Parts read in turn, each of them in base units. -/
theorem readInTurns_units {rs : List (Reader L)} (hrs : rs ≠ []) {m : Memory L} {Q : Nat → Span → Piece L → Prop} : ∀ (ss : List Span) (n : Nat),
    (∀ k x r ps m', ss[k]? = some x → cyclic rs (n + k) = some r → r x m = .ok (ps, m') →
      m' = m ∧ ps.map Piece.first = intRange x.first (x.last + 1) ∧ ∀ q ∈ ps, Q (n + k) x q) → ∀ a b ps m', Tiles a b ss →
    readInTurns rs n ss m = .ok (ps, m') →
    m' = m ∧ ps.map Piece.first = intRange a (b + 1) ∧ ∀ q ∈ ps, ∃ k x, ss[k]? = some x ∧ Q (n + k) x q
  | [], n, _, _, _, _, _, ht, _ => ht.elim
  | s :: ss, n, hr, a, b, ps, m', ht, h => by
    obtain ⟨r, hc⟩ := cyclic_some hrs n
    obtain ⟨t1, t2, t3, t4⟩ := ht.tail_or
    unfold readInTurns at h
    rw [hc] at h
    simp only at h
    cases h1 : r s m with
    | error e => rw [h1] at h; cases h
    | ok z =>
      obtain ⟨ps1, m1⟩ := z
      obtain ⟨rfl, e1, e2⟩ := hr 0 s r ps1 m1 rfl hc h1
      rw [h1] at h
      simp only at h
      cases h2 : readInTurns rs (n + 1) ss m1 with
      | error e => rw [h2] at h; cases h
      | ok z =>
        obtain ⟨ps2, m2⟩ := z
        rw [h2] at h
        cases h
        rcases t4 with ⟨rfl, t4⟩ | t4
        · unfold readInTurns at h2
          cases h2
          refine ⟨rfl, ?_, ?_⟩
          · rw [List.append_nil, e1, t1, t4]
          · intro q hq
            rw [List.append_nil] at hq
            exact ⟨0, s, rfl, e2 q hq⟩
        · obtain ⟨f1, f2, f3⟩ := readInTurns_units hrs ss (n + 1) (by
            intro k x r ps m' hk hc hrr
            have := hr (k + 1) x r ps m' (by simpa using hk) (by rw [← hc]; congr 1; omega) hrr
            rw [show n + 1 + k = n + (k + 1) by omega]
            exact this) _ _ ps2 m' t4 h2
          refine ⟨f1, ?_, ?_⟩
          · rw [List.map_append, e1, f2, t1, intRange_append (by omega) (by omega)]
          · intro q hq
            rcases List.mem_append.1 hq with hq | hq
            · exact ⟨0, s, rfl, e2 q hq⟩
            · obtain ⟨k, x, k1, k2⟩ := f3 q hq
              exact ⟨k + 1, x, by simpa using k1, by rw [show n + (k + 1) = n + 1 + k by omega]; exact k2⟩

theorem unitPieces_first (dl : L) (xs : List L) (p : Nat) (s : Span) :
    (unitPieces dl xs p s).map Piece.first = intRange s.first (s.last + 1) := by
  unfold unitPieces intRange
  rw [List.map_map]
  apply List.map_congr_left
  intro i _
  rfl

/-- The calendar patterns of the kind considered. -/
def Frame.Takes (f : Frame) (p : Freq × List L) : Prop := p.2 ≠ [] ∧ p.1.mult = 1 ∧ checkGroupbyFreq f.freq p.1 = true

/-- A calendar pattern can be read, and gives each base unit the label of its place. -/
theorem Frame.season_read {f : Frame} (hbu : f.freq.mult = 1) (dl : L) {p : Freq × List L} (hp : f.Takes p) {s : Span} (hs : s.Within f.n) (m : Memory L) :
    ∃ ps, Layout.read f dl (season p) s m = .ok (ps, m) ∧ ps.map Piece.first = intRange s.first (s.last + 1) ∧
      ∀ q ∈ ps, q.last = q.first ∧ s.first ≤ q.first ∧ q.first ≤ s.last ∧
        cyclic p.2 (f.ord q.first - f.freq.base.ordOf (p.1.base.startOf (p.1.base.ordOf (f.unitStart q.first)))).toNat = some q.label := by
  obtain ⟨hx, hea, hc⟩ := hp
  have hal : ∀ o, ∃ o', p.1.base.startOf o = f.freq.base.startOf o' := by
    rcases checkGroupby_aligned hc with ⟨_, h2⟩ | ⟨h1, h2⟩
    · exact h2
    · intro o; exact ⟨o, by rw [h1]⟩
  obtain ⟨ss, g1, g2, g3, g4⟩ := Frame.partition_calendar (f := f) (s := s) hc hs.1 hs.2.1 hs.2.2
  have hsk : ∀ s ∈ ss, 0 ≤ s.skipLeft := by
    intro s' hs'
    cases ss with
    | nil => simp at hs'
    | cons y r =>
      have hskc : y.skipLeft = _ ∧ ∀ t ∈ r, t.skipLeft = 0 := g3
      rcases List.mem_cons.1 hs' with rfl | hs'
      · rw [hskc.1]
        have := f.freq.base.ordOf_mono (p.1.base.startOf_le_self (f.unitStart s.first))
        omega
      · rw [hskc.2 s' hs']; exact Int.le_refl _
  have hcut : f.cut s (.marker ⟨p.1, []⟩) = .ok ss := by rw [← Frame.cutSpan_eq _ hs.1 hs.2.1 hs.2.2]; exact g1
  have hin := (Frame.cut_within hs hcut).2
  have hone : ∀ n, cyclic [Layout.read f dl (.pattern (.list p.2))] n = some (Layout.read f dl (.pattern (.list p.2))) := by
    intro n; simp [cyclic, Nat.mod_one]
  have hpat : ∀ x ∈ ss, ∀ m, Layout.read f dl (.pattern (.list p.2)) x m = .ok (unitPieces dl p.2 x.skipLeft.toNat x, m) := by
    intro x hx m
    have := hsk x hx
    unfold Layout.read
    rw [if_neg (by omega)]
  have hok : ∀ (rest : List Span) (n : Nat), (∀ x ∈ rest, x ∈ ss) → ∃ ps, readInTurns [Layout.read f dl (.pattern (.list p.2))] n rest m = .ok (ps, m) := by
    intro rest
    induction rest with
    | nil => intro n _; exact ⟨[], rfl⟩
    | cons x r ih =>
      intro n hr
      obtain ⟨qs, hq⟩ := ih (n + 1) (fun y hy => hr y (List.mem_cons_of_mem _ hy))
      refine ⟨unitPieces dl p.2 x.skipLeft.toNat x ++ qs, ?_⟩
      unfold readInTurns
      rw [hone]
      simp only
      rw [hpat x (hr x (List.mem_cons_self ..))]
      simp only
      rw [hq]
  obtain ⟨ps, hps⟩ := hok ss 0 (fun _ h => h)
  obtain ⟨_, e1, e2⟩ := readInTurns_units (Q := fun _ x q => x ∈ ss ∧ q ∈ unitPieces dl p.2 x.skipLeft.toNat x) (by simp) ss 0 (by
    intro k x r ps m' hk hc hr
    rw [hone] at hc
    cases hc
    have hxm := List.mem_of_getElem? hk
    rw [hpat x hxm] at hr
    cases hr
    exact ⟨rfl, unitPieces_first _ _ _ _, fun q hq => ⟨hxm, hq⟩⟩) _ _ ps m g2 hps
  refine ⟨ps, ?_, e1, ?_⟩
  · unfold season Layout.read
    rw [hcut]
    simp only [List.isEmpty_cons, Bool.false_eq_true, if_false, Layout.readAll]
    exact hps
  · intro q hq
    obtain ⟨k, x, k1, k2, k3⟩ := e2 q hq
    unfold unitPieces at k3
    rw [List.mem_map] at k3
    obtain ⟨i, i1, rfl⟩ := k3
    rw [List.mem_range] at i1
    have hm := g2.mem k2
    have hxw := hin x k2
    have hidx := calendar_index hbu hea hal g2 g3 g4 k2 (i := x.first + i) (by omega) (by omega)
    have hs0 := hsk x k2
    refine ⟨rfl, by simp only; omega, by simp only; omega, ?_⟩
    simp only
    rw [← hidx, show (x.skipLeft + (x.first + (i : Int) - x.first)).toNat = x.skipLeft.toNat + i by omega]
    obtain ⟨l, hl⟩ := cyclic_some hx (x.skipLeft.toNat + i)
    rw [hl]
    rfl

/-- What is read of a layout made of calendar patterns. -/
theorem Layout.MadeOf.read_units {f : Frame} (hbu : f.freq.mult = 1) (dl : L) {P : Freq × List L → Prop} (hP : ∀ p, P p → f.Takes p) {l : Layout L}
    (h : l.MadeOf P) : ∀ (s : Span), s.Within f.n → ∀ (m : Memory L) ps m', Layout.read f dl l s m = .ok (ps, m') →
      m' = m ∧ ps.map Piece.first = intRange s.first (s.last + 1) ∧ ∀ q ∈ ps, q.last = q.first ∧ s.first ≤ q.first ∧ q.first ≤ s.last ∧
        ∃ p, P p ∧ (∀ t, f.unitStart q.first ≤ t → t ≤ f.unitEnd q.first → f.InForce l s t p) ∧
          cyclic p.2 (f.ord q.first - f.freq.base.ordOf (p.1.base.startOf (p.1.base.ordOf (f.unitStart q.first)))).toNat = some q.label := by
  induction h with
  | season hp =>
    rename_i p
    intro s hs m ps m' hr
    obtain ⟨ps', h1, h2, h3⟩ := Frame.season_read hbu dl (hP _ hp) hs m
    rw [hr] at h1
    cases h1
    refine ⟨rfl, h2, fun q hq => ?_⟩
    obtain ⟨q1, q2, q3, q4⟩ := h3 q hq
    exact ⟨q1, q2, q3, p, hp, fun t _ _ => .season, q4⟩
  | organizer hne _ ih =>
    rename_i cut elems _
    intro s hs m ps m' hr
    unfold Layout.read at hr
    cases hc : f.cut s cut with
    | error e => rw [hc] at hr; cases hr
    | ok ss =>
      rw [hc] at hr
      simp only [List.isEmpty_iff, hne, if_false] at hr
      rw [Layout.readAll_eq] at hr
      obtain ⟨ht, hin⟩ := Frame.cut_within hs hc
      obtain ⟨e1, e2, e3⟩ := readInTurns_units (Q := fun n x q => ∃ e, cyclic elems n = some e ∧ q.last = q.first ∧ x.first ≤ q.first ∧ q.first ≤ x.last ∧
        ∃ p, P p ∧ (∀ t, f.unitStart q.first ≤ t → t ≤ f.unitEnd q.first → f.InForce e x t p) ∧
          cyclic p.2 (f.ord q.first - f.freq.base.ordOf (p.1.base.startOf (p.1.base.ordOf (f.unitStart q.first)))).toNat = some q.label)
        (by simpa using hne) ss 0 (by
          intro k x r ps m' hk hcy hrr
          rw [cyclic_map, Option.map_eq_some_iff] at hcy
          obtain ⟨e, he, rfl⟩ := hcy
          obtain ⟨f1, f2, f3⟩ := ih e (mem_of_cyclic he) x (hin x (List.mem_of_getElem? hk)) m ps m' hrr
          exact ⟨f1, f2, fun q hq => ⟨e, he, f3 q hq⟩⟩) _ _ ps m' ht hr
      refine ⟨e1, e2, fun q hq => ?_⟩
      obtain ⟨k, x, k1, e, k2, k3, k4, k5, p, k6, k7, k8⟩ := e3 q hq
      rw [Nat.zero_add] at k2
      have hxm := ht.mem (List.mem_of_getElem? k1)
      refine ⟨k3, by omega, by omega, p, k6, fun t t1 t2 => ?_, k8⟩
      refine .part hc k1 ?_ ?_ k2 (k7 t t1 t2)
      · exact Int.le_trans ((f.unitStart_le_at _ _).2 (by rw [Frame.unitNo_start]; exact k4)) t1
      · have h1 := f.unitStart_le_at (q.first + 1) t
        have h2 := f.unitStart_le_at (x.last + 1) t
        rw [Frame.unitEnd_eq] at t2 ⊢
        omega

/-- There is not more than one calendar pattern in force. -/
theorem Frame.inForce_unique {f : Frame} {l : Layout L} {s : Span} {t : Time} {p : Freq × List L} (h : f.InForce l s t p) (hs : s.Within f.n) :
    ∀ {p'}, f.InForce l s t p' → p = p' := by
  induction h with
  | season =>
    rename_i p s t
    intro p' h'
    generalize hl : season p = l at h'
    cases h' with
    | season => unfold season at hl; simp only [Layout.organizer.injEq, Cut.marker.injEq, Marker.mk.injEq, List.cons.injEq, Layout.pattern.injEq, Pattern.list.injEq] at hl; obtain ⟨⟨h1, _⟩, h2, _⟩ := hl; exact Prod.ext h1 h2
    | part hcut hx h1 h2 he hp =>
      unfold season at hl
      cases hl
      have := mem_of_cyclic he
      rw [List.mem_singleton] at this
      subst this
      cases hp
  | part hcut hx h1 h2 he hp ih =>
    rename_i cut elems s t ss k x e p
    intro p' h'
    generalize hl : Layout.organizer cut elems = l at h'
    cases h' with
    | season =>
      unfold season at hl
      cases hl
      have := mem_of_cyclic he
      rw [List.mem_singleton] at this
      subst this
      cases hp
    | part hcut' hx' h1' h2' he' hp' =>
      cases hl
      rw [hcut] at hcut'
      cases hcut'
      obtain ⟨ht, hin⟩ := Frame.cut_within hs hcut
      have key : ∀ x : Span, f.unitStart x.first ≤ t → t ≤ f.unitEnd x.last → x.first ≤ f.unitNo t ∧ f.unitNo t ≤ x.last := by
        intro x a b
        have h1 := f.unitStart_le_at x.first t
        have h2 := f.unitStart_le_at (x.last + 1) t
        rw [Frame.unitEnd_eq] at b
        omega
      obtain ⟨a1, a2⟩ := key _ h1 h2
      obtain ⟨b1, b2⟩ := key _ h1' h2'
      have := ht.disjoint hx hx' a1 a2 b1 b2
      subst this
      rw [hx] at hx'
      cases hx'
      rw [he] at he'
      cases he'
      exact ih (hin _ (List.mem_of_getElem? hx)) hp'

end TB
