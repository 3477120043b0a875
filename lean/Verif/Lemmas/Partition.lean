import Verif.Lemmas.Frame
import Verif.Spec.Tiling
/-! Laws of the partitioning of spans. -/
namespace TB

/-! ### Tilings -/

theorem Tiles.le {a b : Int} {ss : List Span} (h : Tiles a b ss) : a ≤ b := by
  induction ss generalizing a with
  | nil => exact h.elim
  | cons s ss ih =>
    cases ss with
    | nil => exact h.2.2
    | cons t r =>
      obtain ⟨_, h2, h3⟩ := h
      have := ih h3; omega

theorem Tiles.mem {a b : Int} {ss : List Span} (h : Tiles a b ss) {s : Span} (hs : s ∈ ss) :
    a ≤ s.first ∧ s.first ≤ s.last ∧ s.last ≤ b := by
  induction ss generalizing a with
  | nil => simp at hs
  | cons x ss ih =>
    cases ss with
    | nil =>
      obtain ⟨h1, h2, h3⟩ := h
      simp at hs; subst hs; omega
    | cons t r =>
      obtain ⟨h1, h2, h3⟩ := h
      have hb := Tiles.le h3
      rcases List.mem_cons.1 hs with hs | hs
      · subst hs; omega
      · have := ih h3 hs; omega

theorem Tiles.ne_nil {a b : Int} {ss : List Span} (h : Tiles a b ss) : ss ≠ [] := by
  intro h'; subst h'; exact h

/-- A tiling depends on the bounds of the spans only. -/
theorem tiles_congr {a b : Int} {ss ts : List Span}
    (h : ss.map (fun s => (s.first, s.last)) = ts.map (fun s => (s.first, s.last))) :
    Tiles a b ss ↔ Tiles a b ts := by
  induction ss generalizing a ts with
  | nil => cases ts with
    | nil => rfl
    | cons t ts => simp at h
  | cons s ss ih =>
    cases ts with
    | nil => simp at h
    | cons t ts =>
      simp only [List.map_cons, List.cons.injEq, Prod.mk.injEq] at h
      obtain ⟨⟨h1, h2⟩, h3⟩ := h
      cases ss with
      | nil =>
        cases ts with
        | nil => simp [Tiles, h1, h2]
        | cons => simp at h3
      | cons s' ss =>
        cases ts with
        | nil => simp at h3
        | cons t' ts =>
          simp only [Tiles]
          rw [ih h3, h1, h2]

theorem setFirstSkip_bounds (x : Int) (ss : List Span) :
    (setFirstSkip x ss).map (fun s => (s.first, s.last)) = ss.map (fun s => (s.first, s.last)) := by
  cases ss <;> simp [setFirstSkip]

theorem setLastSkip_bounds (x : Int) (ss : List Span) :
    (setLastSkip x ss).map (fun s => (s.first, s.last)) = ss.map (fun s => (s.first, s.last)) := by
  induction ss with
  | nil => simp [setLastSkip]
  | cons s ss ih =>
    cases ss with
    | nil => simp [setLastSkip]
    | cons t r => simp only [setLastSkip, List.map_cons] at ih ⊢; rw [ih]

/-! ### check_span -/

theorem Frame.checkSpan_ok_iff {f : Frame} {s : Span} :
    f.checkSpan s = .ok () ↔ (0 ≤ s.first ∧ s.first ≤ s.last ∧ s.last < f.n) := by
  unfold Frame.checkSpan
  have h1 := pyGet?_isSome_iff f.ords s.first
  have h2 := pyGet?_isSome_iff f.ords s.last
  rw [f.length_ords] at h1 h2
  cases ha : pyGet? f.ords s.first with
  | none =>
    rw [ha] at h1; simp at h1
    cases hb : pyGet? f.ords s.last <;> simp <;> (rw [hb] at h2; simp at h2; omega)
  | some a =>
    rw [ha] at h1; simp at h1
    cases hb : pyGet? f.ords s.last with
    | none => rw [hb] at h2; simp at h2 ⊢; omega
    | some b =>
      rw [hb] at h2; simp at h2
      simp only
      split
      · simp; omega
      · split
        · simp; omega
        · simp; omega

theorem Frame.checkSpan_error {f : Frame} {s : Span} {e : Err} (h : f.checkSpan s = .error e) :
    e = .outOfBounds ∨ e = .voidInterval := by
  unfold Frame.checkSpan at h
  repeat' split at h
  all_goals simp at h
  all_goals simp [← h]

/-! ### the sub-spans between split positions -/

/-- Sub-spans between the given split positions. -/
def spansBetween : Int → Int → List Int → List Span
  | a, b, [] => [{ first := a, last := b }]
  | a, b, p :: ps => { first := a, last := p - 1 } :: spansBetween p b ps

theorem zip_eq_spansBetween (a b : Int) (ps : List Int) :
    ((a :: ps).zip (ps.map (fun x => x - 1) ++ [b])).map (fun x => ({ first := x.1, last := x.2 } : Span))
      = spansBetween a b ps := by
  induction ps generalizing a with
  | nil => simp [spansBetween]
  | cons p ps ih =>
    simp only [spansBetween, List.map_cons, List.cons_append, List.zip_cons_cons]
    rw [ih]

theorem tiles_spansBetween {a b : Int} {ps : List Int} (hab : a ≤ b) (hs : ps.Pairwise (· < ·))
    (hb : ∀ p ∈ ps, a < p ∧ p ≤ b) : Tiles a b (spansBetween a b ps) := by
  induction ps generalizing a with
  | nil => simp [spansBetween, Tiles, hab]
  | cons p ps ih =>
    rw [List.pairwise_cons] at hs
    have hp := hb p (by simp)
    have ht := @ih p hp.2 hs.2 (fun q hq => ⟨hs.1 q hq, (hb q (by simp [hq])).2⟩)
    simp only [spansBetween]
    cases hss : spansBetween p b ps with
    | nil => rw [hss] at ht; exact ht.elim
    | cons t r =>
      rw [hss] at ht
      simp only [Tiles]
      refine ⟨trivial, by omega, ?_⟩
      have : p - 1 + 1 = p := by omega
      rw [this]; exact ht

theorem firsts_spansBetween (a b : Int) (ps : List Int) : (spansBetween a b ps).map Span.first = a :: ps := by
  induction ps generalizing a with
  | nil => simp [spansBetween]
  | cons p ps ih => simp [spansBetween, ih]

theorem Frame.createSubspans_ok_iff {f : Frame} {s : Span} {pts : List Time} {ss : List Span} :
    f.createSubspans s pts = .ok ss ↔
      (0 ≤ s.first ∧ s.first ≤ s.last ∧ s.last < f.n ∧
        ss = spansBetween s.first s.last (sortedSet (f.getLocVectorized pts s.first s.last))) := by
  unfold Frame.createSubspans Frame.locateSubspans
  cases h : f.checkSpan s with
  | error e =>
    have h' : ¬ (f.checkSpan s = .ok ()) := by rw [h]; simp
    rw [Frame.checkSpan_ok_iff] at h'
    simp only [Bind.bind, Except.bind]
    constructor
    · intro hc; exact absurd hc (by simp)
    · rintro ⟨a, b, c, _⟩; exact absurd ⟨a, b, c⟩ h'
  | ok u =>
    have h' := Frame.checkSpan_ok_iff.1 h
    simp only [Bind.bind, Except.bind, pure, Except.pure, zip_eq_spansBetween]
    have hne : (spansBetween s.first s.last (sortedSet (f.getLocVectorized pts s.first s.last))).isEmpty = false := by
      cases sortedSet (f.getLocVectorized pts s.first s.last) <;> simp [spansBetween]
    rw [hne]
    simp only [Bool.false_eq_true, if_false, Except.ok.injEq]
    constructor
    · rintro rfl; exact ⟨h'.1, h'.2.1, h'.2.2, rfl⟩
    · rintro ⟨_, _, _, rfl⟩; rfl

theorem Frame.mem_getLocVectorized_range {f : Frame} {pts : List Time} {a b x : Int}
    (h : x ∈ f.getLocVectorized pts a b) : a < x ∧ x ≤ b := by
  unfold Frame.getLocVectorized at h
  simp only [List.mem_filter] at h
  simpa using h.2

theorem Frame.createSubspans_tiles {f : Frame} {s : Span} {pts : List Time} {ss : List Span}
    (h : f.createSubspans s pts = .ok ss) : 0 ≤ s.first ∧ s.last < f.n ∧ Tiles s.first s.last ss := by
  obtain ⟨h1, h2, h3, rfl⟩ := Frame.createSubspans_ok_iff.1 h
  refine ⟨h1, h3, tiles_spansBetween h2 (pairwise_sortedSet _) ?_⟩
  intro p hp
  rw [mem_sortedSet] at hp
  exact f.mem_getLocVectorized_range hp

theorem Frame.partitionWithMarker_tiles {f : Frame} {s : Span} {m : Marker} {ss : List Span}
    (h : f.partitionWithMarker s m = .ok ss) : 0 ≤ s.first ∧ s.last < f.n ∧ Tiles s.first s.last ss := by
  unfold Frame.partitionWithMarker at h
  simp only [Bind.bind, Except.bind, pure, Except.pure, throw, throwThe, MonadExceptOf.throw] at h
  by_cases hc : checkGroupbyFreq f.freq m.each = true
  · simp only [hc, Bool.not_true, Bool.false_eq_true, if_false] at h
    cases hk : f.checkSpan s with
    | error e => rw [hk] at h; simp at h
    | ok u =>
      rw [hk] at h
      have hk' := Frame.checkSpan_ok_iff.1 hk
      simp only at h
      cases hst : f.stencilFor m (f.unitStart s.first) (f.unitEnd s.last) with
      | error e => rw [hst] at h; simp at h
      | ok o =>
        rw [hst] at h
        cases o with
        | none =>
          simp only [Except.ok.injEq] at h
          subst h
          exact ⟨hk'.1, hk'.2.2, by simp [Tiles, hk'.2.1]⟩
        | some st =>
          simp only at h
          cases hcs : f.createSubspans s st.points with
          | error e => rw [hcs] at h; simp at h
          | ok spans =>
            rw [hcs] at h
            simp only [Except.ok.injEq] at h
            subst h
            obtain ⟨h1, h2, h3⟩ := Frame.createSubspans_tiles hcs
            refine ⟨h1, h2, ?_⟩
            rw [tiles_congr (setLastSkip_bounds _ _), tiles_congr (setFirstSkip_bounds _ _)]
            exact h3
  · simp only [Bool.not_eq_true] at hc
    simp [hc] at h

end TB
