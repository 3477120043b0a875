import Verif.Lemmas.Layout3
import Verif.Lemmas.Marker
/-! Layouts: independence of RememberingPatterns, calendar-periodic patterns, the order of structure elements. -/
namespace TB
variable {L : Type}

/-! ### Layouts without RememberingPatterns -/

theorem Src.take_fresh_indep (h h' : Heap L) : ∀ (n : Nat) (c : Cycle L),
    Src.take n (.fresh c) h' = (Src.take n (.fresh c) h).map (fun r => (r.1, r.2.1, h')) := by
  intro n
  induction n with
  | zero => intro c; rfl
  | succ n ih =>
    intro c
    unfold Src.take
    cases hn : c.next with
    | none => simp [Src.next, hn]
    | some q =>
      obtain ⟨x, c'⟩ := q
      simp only [Src.next, hn]
      rw [ih c']
      cases Src.take n (.fresh c') h with
      | none => rfl
      | some r => rfl

theorem skiperatorTake_indep (h h' : Heap L) (xs : List L) (skip n : Nat) :
    skiperatorTake (.list xs) skip n h' = (skiperatorTake (.list xs) skip n h).map (fun r => (r.1, h')) := by
  unfold skiperatorTake
  simp only [Pattern.src]
  rw [Src.take_fresh_indep h h']
  cases h1 : Src.take skip (.fresh (Cycle.start xs)) h with
  | none => rfl
  | some r =>
    obtain ⟨_, s', h1'⟩ := r
    obtain ⟨rfl, c', rfl⟩ := Src.take_fresh_heap _ h1
    simp only [Option.map_some]
    rw [Src.take_fresh_indep h1' h']
    cases Src.take n (.fresh c') h1' with
    | none => rfl
    | some r => rfl

/-- An element whose effect neither depends on RememberingPatterns nor touches them. -/
def Step.HeapFree (step : Step L) : Prop :=
  ∀ s st h, step s { st with heap := h } = (step s st).map (fun st' => { st' with heap := h })

theorem applyPattern_heapFree (xs : List L) : Step.HeapFree (applyPattern (.list xs)) := by
  intro s st h
  unfold applyPattern
  split
  · rfl
  · simp only
    rw [skiperatorTake_indep st.heap h]
    cases skiperatorTake (.list xs) s.skipLeft.toNat (s.last + 1 - s.first).toNat st.heap with
    | none => rfl
    | some r => rfl

theorem makeCompound_heapFree (l : L) : Step.HeapFree (makeCompound l) := by
  intro s st h; rfl

theorem zipRun_heapFree : ∀ (ss : List Span) (c : Cycle (Step L)) (st : TLState L) (h : Heap L),
    (∀ p ∈ c.saved, Step.HeapFree p) → (∀ p ∈ c.rest, Step.HeapFree p) →
    zipRun ss c { st with heap := h } = (zipRun ss c st).map (fun st' => { st' with heap := h }) := by
  intro ss
  induction ss with
  | nil => intro c st h _ _; rfl
  | cons s ss ih =>
    intro c st h hs hr
    unfold zipRun
    cases hn : c.next with
    | none => rfl
    | some q =>
      obtain ⟨step, c'⟩ := q
      obtain ⟨hp, hs', hr'⟩ := c.mem_next hn hs hr
      simp only
      rw [hp s st h]
      cases step s st with
      | error e => rfl
      | ok st1 => exact ih c' st1 h hs' hr'

mutual
theorem Layout.run_heapFree (f : Frame) : ∀ l : Layout L, l.plain = true → Step.HeapFree (Layout.run f l)
  | .organizer cut elems => by
    intro hp s st h
    simp only [Layout.plain] at hp
    simp only [Layout.run]
    cases f.cutSpan cut s with
    | error e => rfl
    | ok ss =>
      have := Layout.runAll_heapFree f elems hp
      exact zipRun_heapFree ss _ st h this this
  | .organizerRP cut i => by intro hp; simp [Layout.plain] at hp
  | .pattern (.list xs) => by intro _; simp only [Layout.run]; exact applyPattern_heapFree xs
  | .pattern (.rp i) => by intro hp; simp [Layout.plain] at hp
  | .label l => by intro _; simp only [Layout.run]; exact makeCompound_heapFree l
theorem Layout.runAll_heapFree (f : Frame) : ∀ ls : List (Layout L), Layout.plainAll ls = true → ∀ p ∈ Layout.runAll f ls, Step.HeapFree p
  | [] => by simp [Layout.runAll]
  | l :: ls => by
    intro hp p hm
    simp only [Layout.plainAll, Bool.and_eq_true] at hp
    simp only [Layout.runAll, List.mem_cons] at hm
    rcases hm with hm | hm
    · rw [hm]; exact Layout.run_heapFree f l hp.1
    · exact Layout.runAll_heapFree f ls hp.2 p hm
end

theorem makeOrganizer_plain {l org : Layout L} (h : makeOrganizer l = .ok org) (hp : l.plain = true) : org.plain = true := by
  cases l with
  | organizer c e => simp only [makeOrganizer, Except.ok.injEq] at h; rw [← h]; exact hp
  | organizerRP c i => simp [Layout.plain] at hp
  | pattern p =>
    cases p with
    | list xs => simp only [makeOrganizer, Except.ok.injEq] at h; rw [← h]; simp [Layout.plain, Layout.plainAll]
    | rp i => simp [Layout.plain] at hp
  | label l => simp [makeOrganizer] at h

theorem Timeboard.new_plainLayout {a : Args L} (hp : a.layout.plain = true) (heap heap' : Heap L) :
    Timeboard.new a heap' = (Timeboard.new a heap).map (fun r => (r.1, heap')) := by
  unfold Timeboard.new
  cases ho : makeOrganizer a.layout with
  | error e => rfl
  | ok org =>
    have hop := makeOrganizer_plain ho hp
    simp only
    split
    · rfl
    · cases Frame.new a.freq a.start a.stop with
      | error e => rfl
      | ok f =>
        simp only
        have ht : Timeline.new f (some org) a.refEnd a.defaultLabel heap' =
            (Timeline.new f (some org) a.refEnd a.defaultLabel heap).map (fun r => (r.1, heap')) := by
          unfold Timeline.new
          have hr := Layout.run_heapFree f org hop { first := 0, last := (f.n : Int) - 1 } (TLState.init a.defaultLabel heap) heap'
          unfold TLState.init at hr
          simp only at hr ⊢
          rw [hr]
          cases Layout.run f org { first := 0, last := (f.n : Int) - 1 } { labels := fun _ => a.defaultLabel, mask := fun _ => true, heap := heap } with
          | error e => rfl
          | ok st => rfl
        rw [ht]
        cases Timeline.new f (some org) a.refEnd a.defaultLabel heap with
        | error e => rfl
        | ok r =>
          obtain ⟨tl0, h0⟩ := r
          simp only [Except.map]
          cases tl0.amend a.amendments with
          | error e => rfl
          | ok tl => rfl

/-! ### Workshifts by mask -/

theorem exists_next_mask (mask : Int → Bool) {u : Int} {n : Nat} (hu : u < n) :
    ∃ d : Int, 1 ≤ d ∧ u + d ≤ n ∧ (∀ j, u < j → j < u + d → mask j = false) ∧ (u + d < n → mask (u + d) = true) := by
  have key : ∀ (m : Nat), u + m = (n : Int) → 1 ≤ m → ∃ d : Int, 1 ≤ d ∧ u + d ≤ n ∧ (∀ j, u < j → j < u + d → mask j = false) ∧
      (u + d < n → mask (u + d) = true) := by
    intro m hm h1m
    have : ∀ q : Nat, q < m → (∃ d : Int, 1 ≤ d ∧ u + d ≤ n ∧ (∀ j, u < j → j < u + d → mask j = false) ∧
        (u + d < n → mask (u + d) = true)) ∨ ∀ j, u < j → j ≤ u + q → mask j = false := by
      intro q
      induction q with
      | zero => intro _; right; intro j; omega
      | succ q ih =>
        intro hq
        rcases ih (by omega) with hd | hd
        · exact .inl hd
        · cases hmq : mask (u + (q + 1 : Int)) with
          | true => exact .inl ⟨q + 1, by omega, by omega, fun j j1 j2 => hd j j1 (by omega), fun _ => hmq⟩
          | false =>
            right
            intro j j1 j2
            rcases Int.lt_or_le (u + q) j with hc | hc
            · have : j = u + (q + 1 : Int) := by omega
              rw [this]; exact hmq
            · exact hd j j1 hc
    rcases this (m - 1) (by omega) with hd | hd
    · exact hd
    · exact ⟨m, by omega, by omega, fun j j1 j2 => hd j j1 (by omega), fun hc => by omega⟩
  exact key ((n : Int) - u).toNat (by omega) (by omega)

theorem getElem?_intRange {a b : Int} {i : Nat} (h : a + i < b) : (intRange a b)[i]? = some (a + i) := by
  have hl : i < (intRange a b).length := by rw [length_intRange]; omega
  rw [List.getElem?_eq_getElem hl, getElem_intRange]

theorem intRange_append {a b c : Int} (h1 : a ≤ b) (h2 : b ≤ c) : intRange a b ++ intRange b c = intRange a c := by
  apply List.ext_getElem?
  intro i
  rcases Nat.lt_or_ge i (intRange a b).length with hc | hc
  · rw [List.getElem?_append_left hc]
    rw [length_intRange] at hc
    rw [getElem?_intRange (by omega), getElem?_intRange (by omega)]
  · rw [List.getElem?_append_right hc]
    rw [length_intRange] at hc ⊢
    rcases Int.lt_or_le (a + i) c with hd | hd
    · rw [getElem?_intRange (by omega), getElem?_intRange (by omega)]
      congr 1; omega
    · rw [List.getElem?_eq_none (by rw [length_intRange]; omega), List.getElem?_eq_none (by rw [length_intRange]; omega)]

/-! ### The order of structure elements -/

theorem Layout.organizer_states {f : Frame} {cut : Cut} {elems : List (Layout L)} (he : elems ≠ []) {s : Span} {st st' : TLState L} :
    Layout.run f (.organizer cut elems) s st = .ok st' ↔
    ∃ (ss : List Span) (states : Nat → TLState L), f.cutSpan cut s = .ok ss ∧ states 0 = st ∧ states ss.length = st' ∧
      ∀ i x e, ss[i]? = some x → cyclic elems i = some e → Layout.run f e x (states i) = .ok (states (i + 1)) := by
  have hne : Layout.runAll f elems ≠ [] := by
    intro h; have := Layout.length_runAll f elems; rw [h] at this; simp at this; exact he (List.length_eq_zero_iff.1 this.symm)
  have hcy : ∀ i, cyclic (Layout.runAll f elems) i = (cyclic elems i).map (Layout.run f) := by
    intro i; unfold cyclic; rw [Layout.length_runAll, Layout.getElem?_runAll]
  simp only [Layout.run]
  cases hc : f.cutSpan cut s with
  | error e => simp
  | ok ss =>
    simp only [Except.ok.injEq]
    rw [zipRun_states ss (Cycle.handedOut_start hne)]
    constructor
    · rintro ⟨states, h1, h2, h3⟩
      refine ⟨ss, states, rfl, h1, h2, ?_⟩
      intro i x e hx hcx
      exact h3 i x _ hx (by rw [Nat.zero_add, hcy, hcx]; rfl)
    · rintro ⟨_, states, rfl, h1, h2, h3⟩
      refine ⟨states, h1, h2, ?_⟩
      intro i x step hx hcx
      rw [Nat.zero_add, hcy] at hcx
      cases hce : cyclic elems i with
      | none => rw [hce] at hcx; simp at hcx
      | some e =>
        rw [hce] at hcx
        simp only [Option.map_some, Option.some.injEq] at hcx
        subst hcx
        exact h3 i x e hx hce

/-- What is done to one span of the sequence stays; nothing was done to it before. -/
theorem states_local {f : Frame} {elems : List (Layout L)} (he : elems ≠ []) {ss : List Span} {states : Nat → TLState L} {a b : Int}
    (ht : Tiles a b ss)
    (h : ∀ i x e, ss[i]? = some x → cyclic elems i = some e → Layout.run f e x (states i) = .ok (states (i + 1)))
    {i : Nat} {x : Span} (hx : ss[i]? = some x) {j : Int} (h1 : x.first ≤ j) (h2 : j ≤ x.last) :
    ((states i).labels j = (states 0).labels j ∧ (states i).mask j = (states 0).mask j) ∧
    ((states ss.length).labels j = (states (i + 1)).labels j ∧ (states ss.length).mask j = (states (i + 1)).mask j) := by
  have hi : i < ss.length := by
    rcases Nat.lt_or_ge i ss.length with hc | hc
    · exact hc
    · rw [List.getElem?_eq_none hc] at hx; simp at hx
  have step : ∀ m, m < ss.length → m ≠ i → (states (m + 1)).labels j = (states m).labels j ∧ (states (m + 1)).mask j = (states m).mask j := by
    intro m hm hmi
    have hy : ss[m]? = some ss[m] := List.getElem?_eq_getElem hm
    obtain ⟨e, hce⟩ := cyclic_some he m
    have hr := h m _ e hy hce
    have hle := ht.mem (List.mem_of_getElem? hy)
    refine (Layout.run_local f e _ _ _ hle.2.1 hr).1 j ?_
    rcases Nat.lt_or_gt_of_ne hmi with hc | hc
    · have := ht.lt_of_index hc hy hx; omega
    · have := ht.lt_of_index hc hx hy; omega
  constructor
  · have : ∀ m, m ≤ i → (states m).labels j = (states 0).labels j ∧ (states m).mask j = (states 0).mask j := by
      intro m
      induction m with
      | zero => intro _; exact ⟨rfl, rfl⟩
      | succ m ih =>
        intro hm
        have a1 := ih (by omega)
        have a2 := step m (by omega) (by omega)
        exact ⟨a2.1.trans a1.1, a2.2.trans a1.2⟩
    exact this i (Nat.le_refl _)
  · have : ∀ m, m + (i + 1) ≤ ss.length → (states (m + (i + 1))).labels j = (states (i + 1)).labels j ∧
        (states (m + (i + 1))).mask j = (states (i + 1)).mask j := by
      intro m
      induction m with
      | zero => intro _; rw [Nat.zero_add]; exact ⟨rfl, rfl⟩
      | succ m ih =>
        intro hm
        have a1 := ih (by omega)
        have a2 := step (m + (i + 1)) (by omega) (by omega)
        rw [Nat.add_right_comm m 1 (i + 1)]
        exact ⟨a2.1.trans a1.1, a2.2.trans a1.2⟩
    have e := this (ss.length - (i + 1)) (by omega)
    rw [Nat.sub_add_cancel (by omega)] at e
    exact e

/-! ### Calendar-periodic patterns -/

/-- Base units in one span of the partitioning lie in one period. -/
theorem calendar_index {f : Frame} {each : Freq} {s : Span} {ss : List Span} (hm : f.freq.mult = 1) (he : each.mult = 1)
    (hal : ∀ o, ∃ o', each.base.startOf o = f.freq.base.startOf o') (ht : Tiles s.first s.last ss)
    (hsk : SkipsLeft (f.freq.base.ordOf (f.unitStart s.first) -
        f.freq.base.ordOf (each.base.startOf (each.base.ordOf (f.unitStart s.first)))) ss)
    (hst : ∀ i, s.first < i → i ≤ s.last → ((∃ x ∈ ss, x.first = i) ↔
        ∃ o, (each.mult : Int) ∣ o - each.base.ordOf (f.unitStart s.first) ∧
          f.unitStart i ≤ each.base.startOf o ∧ each.base.startOf o ≤ f.unitEnd i))
    {x : Span} (hx : x ∈ ss) {i : Int} (h1 : x.first ≤ i) (h2 : i ≤ x.last) :
    x.skipLeft + (i - x.first) = f.ord i - f.freq.base.ordOf (each.base.startOf (each.base.ordOf (f.unitStart i))) := by
  have hxm := ht.mem hx
  have hord : ∀ j, f.ord j = f.ord 0 + j := by intro j; simp [Frame.ord, hm]
  have hus : ∀ j, f.unitStart j = f.freq.base.startOf (f.ord j) := fun j => rfl
  have hue : ∀ j, f.unitEnd j = f.freq.base.startOf (f.ord j + 1) - 1 := by
    intro j; rw [Frame.unitEnd_eq, hus, hord (j + 1), hord j]; congr 2; omega
  -- the same period
  have hsame : each.base.ordOf (f.unitStart i) = each.base.ordOf (f.unitStart x.first) := by
    have hmono := each.base.ordOf_mono (Frame.unitStart_le_iff (f := f).2 h1)
    rcases Int.lt_or_le (each.base.ordOf (f.unitStart x.first)) (each.base.ordOf (f.unitStart i)) with hlt | hge
    · exfalso
      obtain ⟨o', ho'⟩ := hal (each.base.ordOf (f.unitStart i))
      have b1 : each.base.startOf (each.base.ordOf (f.unitStart i)) ≤ f.unitStart i := each.base.startOf_le_self _
      have b2 : f.unitStart x.first < each.base.startOf (each.base.ordOf (f.unitStart i)) := by
        have := each.base.lt_startOf_succ (f.unitStart x.first)
        have := (each.base.startOf_le_startOf (each.base.ordOf (f.unitStart x.first) + 1) (each.base.ordOf (f.unitStart i))).2 (by omega)
        omega
      rw [ho'] at b1 b2
      rw [hus] at b1 b2
      have c1 := (f.freq.base.startOf_le_startOf o' (f.ord i)).1 b1
      have c2 := (f.freq.base.startOf_lt_iff (f.ord x.first) o').1 b2
      have hj := hord (o' - f.ord 0)
      obtain ⟨y, hy, hyf⟩ := (hst (o' - f.ord 0) (by have := hord i; have := hord x.first; omega) (by have := hord i; omega)).2
        ⟨each.base.ordOf (f.unitStart i), by rw [he]; exact Int.one_dvd _, by
          rw [ho', hus, show f.ord (o' - f.ord 0) = o' by omega]
          exact Int.le_refl _, by
          rw [ho', hue, show f.ord (o' - f.ord 0) = o' by omega]
          have := (f.freq.base.startOf_lt_iff o' (o' + 1)).2 (by omega)
          omega⟩
      obtain ⟨k, hk⟩ := List.getElem?_of_mem hx
      obtain ⟨k', hk'⟩ := List.getElem?_of_mem hy
      have hym := ht.mem hy
      have := hord i
      have := hord x.first
      have hkk := ht.disjoint (i := y.first) hk hk' (by omega) (by omega) (by omega) (by omega)
      subst hkk
      rw [hk] at hk'
      cases hk'
      omega
    · omega
  rw [hsame]
  have hi := hord i
  have hxf := hord x.first
  -- the beginning of the span
  have hbeg : x.skipLeft = f.ord x.first - f.freq.base.ordOf (each.base.startOf (each.base.ordOf (f.unitStart x.first))) := by
    obtain ⟨k, hk⟩ := List.getElem?_of_mem hx
    cases ss with
    | nil => simp at hx
    | cons y r =>
      have hskc : y.skipLeft = _ ∧ ∀ t ∈ r, t.skipLeft = 0 := hsk
      obtain ⟨s1, s2⟩ := hskc
      cases k with
      | zero =>
        have hf0 := ht.first_zero hk
        simp only [List.getElem?_cons_zero, Option.some.injEq] at hk
        subst hk
        rw [hf0, s1, hus, Base.ordOf_startOf]
      | succ k =>
        have hlt := ht.lt_of_index (j := 0) (k := k + 1) (by omega) (List.getElem?_cons_zero) hk
        rw [List.getElem?_cons_succ] at hk
        have hz := s2 x (List.mem_of_getElem? hk)
        have hym := ht.mem (List.mem_cons_self : y ∈ y :: r)
        obtain ⟨o, _, o1, o2⟩ := (hst x.first (by omega) (by omega)).1 ⟨x, hx, rfl⟩
        obtain ⟨o', ho'⟩ := hal o
        rw [ho', hus] at o1
        rw [ho', hue] at o2
        have d1 := (f.freq.base.startOf_le_startOf (f.ord x.first) o').1 o1
        have d2 := (f.freq.base.startOf_lt_iff o' (f.ord x.first + 1)).1 (by omega)
        have : o' = f.ord x.first := by omega
        subst this
        have : f.unitStart x.first = each.base.startOf o := by rw [ho', hus]
        rw [this, Base.ordOf_startOf, ho', Base.ordOf_startOf, hz]
        omega
  omega

end TB
