import Verif.Model.Layout
import Verif.Lemmas.Partition
/-! Laws of the organizing of spans. -/
namespace TB
variable {L : Type}

/-! ### Locality -/

/-- A layout element touches nothing outside its span and leaves the first unit of the span unmasked
if it was. -/
def Step.Local (step : Step L) : Prop :=
  ∀ (s : Span) (st st' : TLState L), s.first ≤ s.last → step s st = .ok st' →
    (∀ i, (i < s.first ∨ s.last < i) → st'.labels i = st.labels i ∧ st'.mask i = st.mask i) ∧
    st'.mask s.first = st.mask s.first

theorem applyPattern_local (p : Pattern L) : Step.Local (applyPattern p) := by
  intro s st st' hs h
  unfold applyPattern at h
  split at h
  · simp at h
  · split at h
    · simp at h; subst h; simp
    · simp at h; subst h
      refine ⟨fun i hi => ⟨?_, rfl⟩, rfl⟩
      simp only
      rw [if_neg (by omega)]

theorem makeCompound_local (l : L) : Step.Local (makeCompound l) := by
  intro s st st' hs h
  simp only [makeCompound, Except.ok.injEq] at h
  subst h
  refine ⟨fun i hi => ⟨?_, ?_⟩, ?_⟩
  · simp only; rw [if_neg (by omega)]
  · simp only; rw [if_neg (by omega)]
  · simp only; rw [if_neg (by omega)]

theorem Cycle.mem_next {α : Type} {c c' : Cycle α} {x : α} (h : c.next = some (x, c')) {P : α → Prop}
    (hs : ∀ y ∈ c.saved, P y) (hr : ∀ y ∈ c.rest, P y) :
    P x ∧ (∀ y ∈ c'.saved, P y) ∧ (∀ y ∈ c'.rest, P y) := by
  unfold Cycle.next at h
  split at h
  · rename_i z zs hz
    simp only [Option.some.injEq, Prod.mk.injEq] at h
    obtain ⟨rfl, rfl⟩ := h
    exact ⟨hr _ (by simp [hz]), hs, fun y hy => hr y (by rw [hz]; simp at hy; simp [hy])⟩
  · split at h
    · simp at h
    · rename_i z zs hz
      simp only [Option.some.injEq, Prod.mk.injEq] at h
      obtain ⟨rfl, rfl⟩ := h
      exact ⟨hs _ (by simp [hz]), hs, fun y hy => hs y (by rw [hz]; simp at hy; simp [hy])⟩

theorem zipRun_local {ss : List Span} : ∀ {a b : Int} {c : Cycle (Step L)} {st st' : TLState L},
    Tiles a b ss → (∀ p ∈ c.saved, Step.Local p) → (∀ p ∈ c.rest, Step.Local p) →
    zipRun ss c st = .ok st' →
    (∀ i, (i < a ∨ b < i) → st'.labels i = st.labels i ∧ st'.mask i = st.mask i) ∧
    st'.mask a = st.mask a := by
  induction ss with
  | nil => intro a b c st st' ht; exact ht.elim
  | cons s ss ih =>
    intro a b c st st' ht hs hr h
    have hm := ht.mem (List.mem_cons_self : s ∈ s :: ss)
    have hf : s.first = a := by cases ss <;> exact ht.1
    unfold zipRun at h
    cases hn : c.next with
    | none => rw [hn] at h; simp at h; subst h; simp
    | some q =>
      obtain ⟨step, c'⟩ := q
      obtain ⟨hp, hs', hr'⟩ := c.mem_next hn hs hr
      rw [hn] at h
      simp only at h
      cases he : step s st with
      | error e => rw [he] at h; simp at h
      | ok st1 =>
        rw [he] at h
        simp only at h
        obtain ⟨h1, h2⟩ := hp s st st1 hm.2.1 he
        cases ss with
        | nil =>
          simp [zipRun] at h; subst h
          refine ⟨fun i hi => h1 i (by omega), by rw [← hf]; exact h2⟩
        | cons t r =>
          obtain ⟨_, h4, h5⟩ := ht
          obtain ⟨h6, h7⟩ := ih h5 hs' hr' h
          have hb := h5.le
          refine ⟨fun i hi => ?_, ?_⟩
          · rw [(h6 i (by omega)).1, (h6 i (by omega)).2]; exact h1 i (by omega)
          · rw [(h6 a (by omega)).2, ← hf]; exact h2

theorem zipRunRP_local {ss : List Span} : ∀ {a b : Int} {id : Nat} {st st' : TLState L},
    Tiles a b ss → zipRunRP ss id st = .ok st' →
    (∀ i, (i < a ∨ b < i) → st'.labels i = st.labels i ∧ st'.mask i = st.mask i) ∧
    st'.mask a = st.mask a := by
  induction ss with
  | nil => intro a b c st st' ht; exact ht.elim
  | cons s ss ih =>
    intro a b id st st' ht h
    have hm := ht.mem (List.mem_cons_self : s ∈ s :: ss)
    have hf : s.first = a := by cases ss <;> exact ht.1
    unfold zipRunRP at h
    cases hn : (st.heap id).next with
    | none => rw [hn] at h; simp at h; subst h; simp
    | some q =>
      obtain ⟨l, c'⟩ := q
      rw [hn] at h
      simp only at h
      cases he : makeCompound l s { st with heap := st.heap.set id c' } with
      | error e => rw [he] at h; simp at h
      | ok st1 =>
        rw [he] at h
        simp only at h
        obtain ⟨h1, h2⟩ := makeCompound_local l s _ st1 hm.2.1 he
        cases ss with
        | nil =>
          simp [zipRunRP] at h; subst h
          refine ⟨fun i hi => h1 i (by omega), by rw [← hf]; exact h2⟩
        | cons t r =>
          obtain ⟨_, h4, h5⟩ := ht
          obtain ⟨h6, h7⟩ := ih h5 h
          have hb := h5.le
          refine ⟨fun i hi => ?_, ?_⟩
          · rw [(h6 i (by omega)).1, (h6 i (by omega)).2]; exact h1 i (by omega)
          · rw [(h6 a (by omega)).2, ← hf]; exact h2

theorem Frame.cutSpan_tiles {f : Frame} {c : Cut} {s : Span} {ss : List Span} (h : f.cutSpan c s = .ok ss) :
    0 ≤ s.first ∧ s.last < f.n ∧ Tiles s.first s.last ss := by
  cases c with
  | marker m => exact Frame.partitionWithMarker_tiles h
  | marks ts => exact Frame.createSubspans_tiles h

mutual
theorem Layout.run_local (f : Frame) : ∀ l : Layout L, Step.Local (Layout.run f l)
  | .organizer cut elems => by
    intro s st st' hs h
    simp only [Layout.run] at h
    cases hc : f.cutSpan cut s with
    | error e => rw [hc] at h; simp at h
    | ok ss =>
      rw [hc] at h
      exact zipRun_local (Frame.cutSpan_tiles hc).2.2 (Layout.runAll_local f elems) (Layout.runAll_local f elems) h
  | .organizerRP cut i => by
    intro s st st' hs h
    simp only [Layout.run] at h
    cases hc : f.cutSpan cut s with
    | error e => rw [hc] at h; simp at h
    | ok ss =>
      rw [hc] at h
      exact zipRunRP_local (Frame.cutSpan_tiles hc).2.2 h
  | .pattern p => by simp only [Layout.run]; exact applyPattern_local p
  | .label l => by simp only [Layout.run]; exact makeCompound_local l
theorem Layout.runAll_local (f : Frame) : ∀ ls : List (Layout L), ∀ p ∈ Layout.runAll f ls, Step.Local p
  | [] => by simp [Layout.runAll]
  | l :: ls => by
    intro p hp
    simp only [Layout.runAll, List.mem_cons] at hp
    rcases hp with hp | hp
    · rw [hp]; exact Layout.run_local f l
    · exact Layout.runAll_local f ls p hp
end

end TB
