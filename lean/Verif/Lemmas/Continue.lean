import Verif.Lemmas.Layout4
import Verif.Lemmas.Marker
/-! What becomes of the organizing of a span when its end is moved to the future. -/
namespace TB
variable {L : Type}

/-! ### iterators -/

/-- A cycle without saved elements has no elements at all. -/
def Cycle.Fit {α : Type} (c : Cycle α) : Prop := c.saved = [] → c.rest = []

theorem Cycle.fit_start {α : Type} (xs : List α) : (Cycle.start xs).Fit := fun h => h

theorem Cycle.Fit.next {α : Type} {c c' : Cycle α} {x : α} (h : c.Fit) (hn : c.next = some (x, c')) : c'.Fit ∧ c'.saved ≠ [] := by
  have key : c'.saved = c.saved ∧ c.saved ≠ [] := by
    unfold Cycle.next at hn
    split at hn
    · rename_i y ys hy
      cases hn
      refine ⟨rfl, fun e => ?_⟩
      rw [h e] at hy
      cases hy
    · split at hn
      · cases hn
      · rename_i y ys hy
        cases hn
        exact ⟨rfl, fun e => by rw [e] at hy; cases hy⟩
  rw [← key.1] at key
  exact ⟨fun e => absurd e key.2, key.2⟩

theorem Cycle.next_isSome {α : Type} {c : Cycle α} (h : c.saved ≠ []) : ∃ x c', c.next = some (x, c') := by
  unfold Cycle.next
  split
  · exact ⟨_, _, rfl⟩
  · split
    · contradiction
    · exact ⟨_, _, rfl⟩

/-- All RememberingPatterns are fit. -/
def Heap.Fit (h : Heap L) : Prop := ∀ i, (h i).Fit

theorem Heap.Fit.set {h : Heap L} (hh : h.Fit) (i : Nat) {c : Cycle L} (hc : c.Fit) : (h.set i c).Fit := by
  intro j
  by_cases e : j = i
  · subst e; rw [Heap.set_same]; exact hc
  · rw [Heap.set_other _ _ e]; exact hh j

/-- The iterator is fit. -/
def Src.Fit : Src L → Prop
  | .fresh c => c.Fit
  | .shared _ => True

theorem Pattern.src_fit (p : Pattern L) : p.src.Fit := by
  cases p with
  | list xs => exact Cycle.fit_start xs
  | rp i => trivial

/-- The iterator has elements. -/
def Src.Full : Src L → Heap L → Prop
  | .fresh c, _ => c.saved ≠ []
  | .shared i, h => (h i).saved ≠ []

theorem Src.Fit.next {s s' : Src L} {h h' : Heap L} {x : L} (hs : s.Fit) (hh : h.Fit) (e : s.next h = some (x, s', h')) :
    s'.Fit ∧ h'.Fit ∧ s'.Full h' := by
  cases s with
  | fresh c =>
    simp only [Src.next] at e
    cases hn : c.next with
    | none => rw [hn] at e; cases e
    | some xc =>
      obtain ⟨y, c'⟩ := xc
      rw [hn] at e
      cases e
      have := Cycle.Fit.next hs hn
      exact ⟨this.1, hh, this.2⟩
  | shared i =>
    simp only [Src.next] at e
    cases hn : (h i).next with
    | none => rw [hn] at e; cases e
    | some xc =>
      obtain ⟨y, c'⟩ := xc
      rw [hn] at e
      cases e
      have := Cycle.Fit.next (hh i) hn
      exact ⟨trivial, hh.set i this.1, by show ((h.set i c') i).saved ≠ []; rw [Heap.set_same]; exact this.2⟩

theorem Src.Full.next {s : Src L} {h : Heap L} (hf : s.Full h) : ∃ x s' h', s.next h = some (x, s', h') := by
  cases s with
  | fresh c =>
    obtain ⟨x, c', e⟩ := Cycle.next_isSome hf
    exact ⟨x, .fresh c', h, by simp [Src.next, e]⟩
  | shared i =>
    obtain ⟨x, c', e⟩ := Cycle.next_isSome hf
    exact ⟨x, .shared i, h.set i c', by simp [Src.next, e]⟩

theorem Src.Full.take : ∀ (n : Nat) {s : Src L} {h : Heap L}, s.Full h → s.Fit → h.Fit →
    ∃ xs s' h', Src.take n s h = some (xs, s', h') ∧ s'.Full h' ∧ s'.Fit ∧ h'.Fit := by
  intro n
  induction n with
  | zero => intro s h a b c; exact ⟨_, _, _, rfl, a, b, c⟩
  | succ n ih =>
    intro s h a b c
    obtain ⟨x, s1, h1, e⟩ := a.next
    obtain ⟨f1, f2, f3⟩ := Src.Fit.next b c e
    obtain ⟨xs, s2, h2, e2, r⟩ := ih f3 f1 f2
    exact ⟨x :: xs, s2, h2, by simp only [Src.take, e, e2], r⟩

theorem Src.take_fit : ∀ (n : Nat) {s s' : Src L} {h h' : Heap L} {xs : List L}, s.Fit → h.Fit → Src.take n s h = some (xs, s', h') →
    s'.Fit ∧ h'.Fit := by
  intro n
  induction n with
  | zero => intro s s' h h' xs a b e; cases e; exact ⟨a, b⟩
  | succ n ih =>
    intro s s' h h' xs a b e
    simp only [Src.take] at e
    cases hn : s.next h with
    | none => rw [hn] at e; cases e
    | some y =>
      obtain ⟨x, s1, h1⟩ := y
      rw [hn] at e
      simp only at e
      obtain ⟨f1, f2, _⟩ := Src.Fit.next a b hn
      cases hm : Src.take n s1 h1 with
      | none => rw [hm] at e; cases e
      | some z =>
        obtain ⟨ys, s2, h2⟩ := z
        rw [hm] at e
        cases e
        exact ih f1 f2 hm

/-- Fewer elements of the same iterator are the same elements. -/
theorem Src.take_le : ∀ (n : Nat) {m : Nat} {s s' : Src L} {h h' : Heap L} {xs : List L}, n ≤ m → Src.take m s h = some (xs, s', h') →
    ∃ s'' h'', Src.take n s h = some (xs.take n, s'', h'') := by
  intro n
  induction n with
  | zero => intro m s s' h h' xs _ _; exact ⟨s, h, rfl⟩
  | succ n ih =>
    intro m s s' h h' xs hm e
    cases m with
    | zero => omega
    | succ m =>
      simp only [Src.take] at e ⊢
      cases hn : s.next h with
      | none => rw [hn] at e; cases e
      | some y =>
        obtain ⟨x, s1, h1⟩ := y
        rw [hn] at e
        simp only at e ⊢
        cases hm' : Src.take m s1 h1 with
        | none => rw [hm'] at e; cases e
        | some z =>
          obtain ⟨ys, s2, h2⟩ := z
          rw [hm'] at e
          cases e
          obtain ⟨s3, h3, e3⟩ := ih (by omega) hm'
          exact ⟨s3, h3, by rw [e3]; rfl⟩

theorem skiperatorTake_none_iff {p : Pattern L} {skip n m : Nat} {h : Heap L} (hh : h.Fit) (hn : 0 < n) (hm : 0 < m) :
    skiperatorTake p skip n h = none → skiperatorTake p skip m h = none := by
  intro e
  unfold skiperatorTake at e ⊢
  cases h1 : Src.take skip p.src h with
  | none => rfl
  | some y =>
    obtain ⟨ys, s1, hp1⟩ := y
    rw [h1] at e
    simp only at e ⊢
    obtain ⟨f1, f2⟩ := Src.take_fit skip p.src_fit hh h1
    cases h2 : s1.next hp1 with
    | none =>
      obtain ⟨m', rfl⟩ : ∃ m', m = m' + 1 := ⟨m - 1, by omega⟩
      simp only [Src.take, h2]
    | some z =>
      exfalso
      obtain ⟨x, s2, hp2⟩ := z
      obtain ⟨n', rfl⟩ : ∃ n', n = n' + 1 := ⟨n - 1, by omega⟩
      obtain ⟨g1, g2, g3⟩ := Src.Fit.next f1 f2 h2
      obtain ⟨xs, s3, hp3, e3, _⟩ := Src.Full.take n' g3 g1 g2
      simp only [Src.take, h2, e3] at e
      cases e

theorem skiperatorTake_le {p : Pattern L} {skip n m : Nat} {h h' : Heap L} {xs : List L} (hnm : n ≤ m)
    (e : skiperatorTake p skip m h = some (xs, h')) : ∃ h'', skiperatorTake p skip n h = some (xs.take n, h'') := by
  unfold skiperatorTake at e ⊢
  cases h1 : Src.take skip p.src h with
  | none => rw [h1] at e; cases e
  | some y =>
    obtain ⟨ys, s1, hp1⟩ := y
    rw [h1] at e
    simp only at e ⊢
    cases h2 : Src.take m s1 hp1 with
    | none => rw [h2] at e; cases e
    | some z =>
      obtain ⟨zs, s2, hp2⟩ := z
      rw [h2] at e
      cases e
      obtain ⟨s3, h3, e3⟩ := Src.take_le n hnm h2
      exact ⟨h3, by rw [e3]⟩

theorem skiperatorTake_fit {p : Pattern L} {skip n : Nat} {h h' : Heap L} {xs : List L} (hh : h.Fit)
    (e : skiperatorTake p skip n h = some (xs, h')) : h'.Fit := by
  unfold skiperatorTake at e
  cases h1 : Src.take skip p.src h with
  | none => rw [h1] at e; cases e
  | some y =>
    obtain ⟨ys, s1, hp1⟩ := y
    rw [h1] at e
    simp only at e
    obtain ⟨f1, f2⟩ := Src.take_fit skip p.src_fit hh h1
    cases h2 : Src.take n s1 hp1 with
    | none => rw [h2] at e; cases e
    | some z =>
      obtain ⟨zs, s2, hp2⟩ := z
      rw [h2] at e
      cases e
      exact (Src.take_fit n f1 f2 h2).2

/-! ### steps -/

/-- The states agree up to the base unit `b`. -/
def TLState.Agree (b : Int) (st st' : TLState L) : Prop := ∀ j, j ≤ b → st.labels j = st'.labels j ∧ st.mask j = st'.mask j

/-- `step'` on a longer span does on the shorter one what `step` does. -/
def Step.Continues (n n' : Int) (step step' : Step L) : Prop :=
  ∀ (s s' : Span) (st st' r' : TLState L), s.first = s'.first → s.skipLeft = s'.skipLeft → 0 ≤ s.first → s.first ≤ s.last → s.last ≤ s'.last →
    s.last < n → s'.last < n' → st.Agree s.last st' → st.heap = st'.heap → st.heap.Fit → step' s' st' = .ok r' →
    ∃ r, step s st = .ok r ∧ r.Agree s.last r' ∧ (s.last = s'.last → r.heap = r'.heap ∧ r'.heap.Fit)

theorem applyPattern_continues (n n' : Int) (p : Pattern L) : Step.Continues n n' (applyPattern p) (applyPattern p) := by
  intro s s' st st' r' h1 h2 h3 h4 h5 _ _ hag hh hfit e
  unfold applyPattern at e ⊢
  rw [h2]
  rw [← hh, ← h1] at e
  by_cases hneg : s'.skipLeft < 0
  · rw [if_pos hneg] at e; cases e
  rw [if_neg hneg] at e ⊢
  cases hk : skiperatorTake p s'.skipLeft.toNat (s'.last + 1 - s.first).toNat st.heap with
  | none =>
    rw [hk] at e
    rw [skiperatorTake_none_iff (m := (s.last + 1 - s.first).toNat) hfit (by omega) (by omega) hk]
    cases e
    exact ⟨st, rfl, hag, fun _ => ⟨hh, hh ▸ hfit⟩⟩
  | some y =>
    obtain ⟨xs, hp⟩ := y
    rw [hk] at e
    obtain ⟨hp', e2⟩ := skiperatorTake_le (n := (s.last + 1 - s.first).toNat) (by omega) hk
    rw [e2]
    cases e
    refine ⟨_, rfl, ?_, ?_⟩
    · intro j hj
      simp only
      refine ⟨?_, (hag j hj).2⟩
      by_cases hj1 : s.first ≤ j
      · rw [if_pos ⟨hj1, hj⟩, if_pos ⟨hj1, by omega⟩, List.getElem?_take_of_lt (by omega), (hag j hj).1]
      · rw [if_neg (by omega), if_neg (by omega)]
        exact (hag j hj).1
    · intro hl
      have hk' := hk
      rw [← hl, e2] at hk'
      simp only [Option.some.injEq, Prod.mk.injEq] at hk'
      exact ⟨hk'.2, skiperatorTake_fit hfit hk⟩

theorem makeCompound_continues (n n' : Int) (l : L) : Step.Continues n n' (makeCompound l) (makeCompound l) := by
  intro s s' st st' r' h1 h2 h3 h4 h5 _ _ hag hh hfit e
  unfold makeCompound at e ⊢
  cases e
  refine ⟨_, rfl, ?_, fun _ => ⟨hh, hh ▸ hfit⟩⟩
  intro j hj
  simp only [h1]
  refine ⟨?_, ?_⟩
  · rw [(hag j hj).1]
  · rw [(hag j hj).2]
    by_cases hc : s'.first + 1 ≤ j
    · rw [if_pos ⟨hc, hj⟩, if_pos ⟨hc, by omega⟩]
    · rw [if_neg (by omega), if_neg (by omega)]

/-- Two lists of spans start the same spans up to the base unit `b`. -/
def SameStarts (b : Int) (ss ss' : List Span) : Prop :=
  ∀ i k, i ≤ b → ((∃ x ∈ ss, x.first = i ∧ x.skipLeft = k) ↔ ∃ x ∈ ss', x.first = i ∧ x.skipLeft = k)

theorem tiles_cons {a b : Int} {s t : Span} {r : List Span} (h : Tiles a b (s :: t :: r)) :
    s.first = a ∧ s.first ≤ s.last ∧ Tiles (s.last + 1) b (t :: r) := by
  obtain ⟨h1, h2, h3⟩ := h
  exact ⟨h1, by omega, h3⟩

theorem tiles_one {a b : Int} {s : Span} (h : Tiles a b [s]) : s.first = a ∧ s.last = b ∧ a ≤ b := h

theorem Tiles.head {a b : Int} {s : Span} {r : List Span} (h : Tiles a b (s :: r)) : s.first = a ∧ s.first ≤ s.last ∧ s.last ≤ b := by
  cases r with
  | nil => obtain ⟨h1, h2, h3⟩ := tiles_one h; omega
  | cons t r =>
    obtain ⟨h1, h2, h3⟩ := tiles_cons h
    have := h3.le
    omega

/-- The start of the second span. -/
theorem Tiles.tail {a b : Int} {s : Span} {r : List Span} (h : Tiles a b (s :: r)) : (r = [] ∧ s.last = b) ∨ Tiles (s.last + 1) b r := by
  cases r with
  | nil => exact .inl ⟨rfl, (tiles_one h).2.1⟩
  | cons t r => exact .inr (tiles_cons h).2.2

/-- How the first spans of two tilings with the same starts compare. -/
theorem SameStarts.cons {a b b' : Int} {x x' : Span} {r r' : List Span} (h : Tiles a b (x :: r)) (h' : Tiles a b' (x' :: r'))
    (hb : b ≤ b') (hs : SameStarts b (x :: r) (x' :: r')) :
    x.first = x'.first ∧ x.skipLeft = x'.skipLeft ∧
    ((r = [] ∧ x.last = b ∧ b ≤ x'.last ∧ (b = b' → r' = [] ∧ x'.last = b)) ∨
     (x.last = x'.last ∧ Tiles (x.last + 1) b r ∧ Tiles (x.last + 1) b' r' ∧ SameStarts b r r')) := by
  obtain ⟨p1, p2, p3⟩ := h.head
  obtain ⟨q1, q2, q3⟩ := h'.head
  have hskip : x.skipLeft = x'.skipLeft := by
    obtain ⟨y, hy, hy1, hy2⟩ := (hs a x.skipLeft (by omega)).1 ⟨x, by simp, p1, rfl⟩
    rcases List.mem_cons.1 hy with rfl | hy
    · exact hy2.symm
    · rcases h'.tail with ⟨e, _⟩ | ht
      · rw [e] at hy; cases hy
      · have := ht.mem hy; omega
  refine ⟨by omega, hskip, ?_⟩
  rcases h.tail with ⟨e, hl⟩ | ht
  · left
    refine ⟨e, hl, ?_, ?_⟩
    · rcases h'.tail with ⟨_, hl'⟩ | ht'
      · omega
      · rcases Int.lt_or_le x'.last b with hlt | hle
        · exfalso
          cases r' with
          | nil => exact ht'.elim
          | cons y r' =>
            have hy := ht'.head
            obtain ⟨z, hz, hz1, _⟩ := (hs y.first y.skipLeft (by omega)).2 ⟨y, by simp, rfl, rfl⟩
            subst e
            simp only [List.mem_singleton] at hz
            subst hz
            omega
        · exact hle
    · intro hbb
      rcases h'.tail with ⟨e', hl'⟩ | ht'
      · exact ⟨e', by omega⟩
      · exfalso
        have := ht'.le
        cases r' with
        | nil => exact ht'.elim
        | cons y r' =>
          have hy := ht'.head
          obtain ⟨z, hz, hz1, _⟩ := (hs y.first y.skipLeft (by omega)).2 ⟨y, by simp, rfl, rfl⟩
          subst e
          simp only [List.mem_singleton] at hz
          subst hz
          omega
  · right
    have hle := ht.le
    have hxl : x.last = x'.last ∧ Tiles (x'.last + 1) b' r' := by
      have hex : ∃ y ∈ x' :: r', y.first = x.last + 1 := by
        cases r with
        | nil => exact ht.elim
        | cons y r =>
          have hy := ht.head
          obtain ⟨z, hz, hz1, _⟩ := (hs y.first y.skipLeft (by omega)).1 ⟨y, by simp, rfl, rfl⟩
          exact ⟨z, hz, by omega⟩
      obtain ⟨z, hz, hz1⟩ := hex
      rcases List.mem_cons.1 hz with rfl | hz
      · omega
      · rcases h'.tail with ⟨e', _⟩ | ht'
        · rw [e'] at hz; cases hz
        · refine ⟨?_, ht'⟩
          have hz2 := ht'.mem hz
          rcases Int.lt_or_le x'.last x.last with hlt | hge
          · exfalso
            cases r' with
            | nil => exact ht'.elim
            | cons y r' =>
              have hy := ht'.head
              obtain ⟨w, hw, hw1, _⟩ := (hs y.first y.skipLeft (by omega)).2 ⟨y, by simp, rfl, rfl⟩
              rcases List.mem_cons.1 hw with rfl | hw
              · omega
              · have := ht.mem hw; omega
          · omega
    refine ⟨hxl.1, ht, by rw [hxl.1]; exact hxl.2, ?_⟩
    intro i k hi
    constructor
    · rintro ⟨y, hy, hy1, hy2⟩
      have hm := ht.mem hy
      obtain ⟨z, hz, hz1, hz2⟩ := (hs i k hi).1 ⟨y, by simp [hy], hy1, hy2⟩
      rcases List.mem_cons.1 hz with rfl | hz
      · omega
      · exact ⟨z, hz, hz1, hz2⟩
    · rintro ⟨y, hy, hy1, hy2⟩
      have hm := hxl.2.mem hy
      obtain ⟨z, hz, hz1, hz2⟩ := (hs i k hi).2 ⟨y, by simp [hy], hy1, hy2⟩
      rcases List.mem_cons.1 hz with rfl | hz
      · omega
      · exact ⟨z, hz, hz1, hz2⟩

/-- Related lists. -/
inductive Rel {α : Type} (R : α → α → Prop) : List α → List α → Prop
  | nil : Rel R [] []
  | cons {a b : α} {as bs : List α} : R a b → Rel R as bs → Rel R (a :: as) (b :: bs)

/-- Related cycles. -/
def Cycle.Related {α : Type} (R : α → α → Prop) (c c' : Cycle α) : Prop := Rel R c.saved c'.saved ∧ Rel R c.rest c'.rest

theorem Cycle.Related.next {α : Type} {R : α → α → Prop} {c c' : Cycle α} (h : c.Related R c') :
    (c.next = none ∧ c'.next = none) ∨ ∃ x x' d d', c.next = some (x, d) ∧ c'.next = some (x', d') ∧ R x x' ∧ d.Related R d' := by
  obtain ⟨s, r⟩ := c
  obtain ⟨s', r'⟩ := c'
  obtain ⟨h1, h2⟩ := h
  simp only at h1 h2
  cases h2 with
  | nil =>
    cases h1 with
    | nil => exact .inl ⟨rfl, rfl⟩
    | cons a b => exact .inr ⟨_, _, _, _, rfl, rfl, a, .cons a b, b⟩
  | cons a b => exact .inr ⟨_, _, _, _, rfl, rfl, a, h1, b⟩

theorem zipRun_continues {n n' : Int} : ∀ (ss : List Span) {ss' : List Span} {a b b' : Int} {c c' : Cycle (Step L)} {st st' r' : TLState L},
    Tiles a b ss → Tiles a b' ss' → b ≤ b' → 0 ≤ a → b < n → b' < n' → SameStarts b ss ss' →
    c.Related (fun x y => Step.Continues n n' x y ∧ Step.Local x ∧ Step.Local y) c' →
    (∀ p ∈ c'.saved, Step.Local p) → (∀ p ∈ c'.rest, Step.Local p) →
    st.Agree b st' → st.heap = st'.heap → st.heap.Fit → zipRun ss' c' st' = .ok r' →
    (∃ r, zipRun ss c st = .ok r ∧ r.Agree b r' ∧ (b = b' → r.heap = r'.heap ∧ r'.heap.Fit)) := by
  intro ss
  induction ss with
  | nil => intro _ _ _ _ _ _ _ _ _ ht; exact ht.elim
  | cons x ss ih =>
    intro ss' a b b' c c' st st' r' ht ht' hb h0 hn hn' hs hc hl1 hl2 hag hh hfit e
    cases ss' with
    | nil => exact ht'.elim
    | cons x' ss' =>
      have hx := ht.head
      have hx' := ht'.head
      obtain ⟨e1, e2, hcase⟩ := SameStarts.cons ht ht' hb hs
      simp only [zipRun] at e ⊢
      rcases hc.next with ⟨c1, c2⟩ | ⟨f, g, d, d', c1, c2, ⟨hR, hRl, hRl'⟩, hd⟩
      · rw [c1]; rw [c2] at e
        cases e
        exact ⟨st, rfl, hag, fun _ => ⟨hh, hh ▸ hfit⟩⟩
      · rw [c1]; rw [c2] at e
        simp only at e ⊢
        have hdl := Cycle.mem_next c2 hl1 hl2
        cases hg : g x' st' with
        | error er => rw [hg] at e; cases e
        | ok st1' =>
          rw [hg] at e
          simp only at e
          rcases hcase with ⟨en, el, elb, ebb⟩ | ⟨el, ht2, ht2', hs2⟩
          · obtain ⟨r, hr, hag2, hheap⟩ := hR x x' st st' st1' e1 e2 (by omega) (by omega) (by omega) (by omega) (by omega)
              (by rw [el]; exact hag) hh hfit hg
            rw [hr]
            subst en
            simp only [zipRun]
            refine ⟨r, rfl, ?_, ?_⟩
            · intro j hj
              rw [el] at hag2
              obtain ⟨m1, m2⟩ := hag2 j hj
              rcases ht'.tail with ⟨en', _⟩ | htt
              · subst en'
                simp only [zipRun] at e
                cases e
                exact ⟨m1, m2⟩
              · have := (zipRun_local htt hdl.2.1 hdl.2.2 e).1 j (.inl (by omega))
                rw [m1, m2]
                exact ⟨this.1.symm, this.2.symm⟩
            · intro hbb
              obtain ⟨en', el'⟩ := ebb hbb
              subst en'
              simp only [zipRun] at e
              cases e
              exact hheap (by omega)
          · have hle2 := ht2.le
            obtain ⟨r, hr, hag2, hheap⟩ := hR x x' st st' st1' e1 e2 (by omega) (by omega) (by omega) (by omega) (by omega)
              (fun j hj => hag j (by omega)) hh hfit hg
            rw [hr]
            simp only
            have hl3 := hRl x st r (by omega) hr
            have hl4 := hRl' x' st' st1' (by omega) hg
            refine ih ht2 ht2' hb (by omega) hn hn' hs2 hd hdl.2.1 hdl.2.2 ?_ (hheap el).1 (by rw [(hheap el).1]; exact (hheap el).2) e
            intro j hj
            rcases Int.lt_or_le x.last j with hj2 | hj2
            · have a1 := hl3.1 j (.inr hj2)
              have a2 := hl4.1 j (.inr (by omega))
              rw [a1.1, a1.2, a2.1, a2.2]
              exact hag j hj
            · exact hag2 j hj2

theorem zipRunRP_continues : ∀ (ss : List Span) {ss' : List Span} {a b b' : Int} {id : Nat} {st st' r' : TLState L},
    Tiles a b ss → Tiles a b' ss' → b ≤ b' → 0 ≤ a → SameStarts b ss ss' →
    st.Agree b st' → st.heap = st'.heap → st.heap.Fit → zipRunRP ss' id st' = .ok r' →
    (∃ r, zipRunRP ss id st = .ok r ∧ r.Agree b r' ∧ (b = b' → r.heap = r'.heap ∧ r'.heap.Fit)) := by
  intro ss
  induction ss with
  | nil => intro _ _ _ _ _ _ _ _ ht; exact ht.elim
  | cons x ss ih =>
    intro ss' a b b' id st st' r' ht ht' hb h0 hs hag hh hfit e
    cases ss' with
    | nil => exact ht'.elim
    | cons x' ss' =>
      have hx := ht.head
      have hx' := ht'.head
      obtain ⟨e1, e2, hcase⟩ := SameStarts.cons ht ht' hb hs
      simp only [zipRunRP] at e ⊢
      rw [← hh] at e
      cases hc : (st.heap id).next with
      | none =>
        rw [hc] at e
        cases e
        exact ⟨st, rfl, hag, fun _ => ⟨hh, hh ▸ hfit⟩⟩
      | some y =>
        obtain ⟨l, c1⟩ := y
        rw [hc] at e
        simp only at e ⊢
        have hfit1 : (st.heap.set id c1).Fit := hfit.set id (Cycle.Fit.next (hfit id) hc).1
        have hm : ∀ (x : Span) (st : TLState L), ∃ r, makeCompound l x st = .ok r := fun x st => ⟨_, rfl⟩
        obtain ⟨st1', hg⟩ := hm x' { st' with heap := st.heap.set id c1 }
        rw [hg] at e
        simp only at e
        rcases hcase with ⟨en, el, elb, ebb⟩ | ⟨el, ht2, ht2', hs2⟩
        · obtain ⟨r, hr, hag2, hheap⟩ := makeCompound_continues (x.last + 1) (x'.last + 1) l x x' { st with heap := st.heap.set id c1 }
            { st' with heap := st.heap.set id c1 } st1' e1 e2 (by omega) (by omega) (by omega) (by omega) (by omega)
            (by rw [el]; exact hag) rfl hfit1 hg
          rw [hr]
          subst en
          simp only [zipRunRP]
          refine ⟨r, rfl, ?_, ?_⟩
          · intro j hj
            rw [el] at hag2
            obtain ⟨m1, m2⟩ := hag2 j hj
            rcases ht'.tail with ⟨en', _⟩ | htt
            · subst en'
              simp only [zipRunRP] at e
              cases e
              exact ⟨m1, m2⟩
            · have := (zipRunRP_local htt e).1 j (.inl (by omega))
              rw [m1, m2]
              exact ⟨this.1.symm, this.2.symm⟩
          · intro hbb
            obtain ⟨en', el'⟩ := ebb hbb
            subst en'
            simp only [zipRunRP] at e
            cases e
            exact hheap (by omega)
        · have hle2 := ht2.le
          obtain ⟨r, hr, hag2, hheap⟩ := makeCompound_continues (x.last + 1) (x'.last + 1) l x x' { st with heap := st.heap.set id c1 }
            { st' with heap := st.heap.set id c1 } st1' e1 e2 (by omega) (by omega) (by omega) (by omega) (by omega)
            (fun j hj => hag j (by omega)) rfl hfit1 hg
          rw [hr]
          simp only
          have hl3 := makeCompound_local l x { st with heap := st.heap.set id c1 } r (by omega) hr
          have hl4 := makeCompound_local l x' { st' with heap := st.heap.set id c1 } st1' (by omega) hg
          refine ih ht2 ht2' hb (by omega) hs2 ?_ (hheap el).1 (by rw [(hheap el).1]; exact (hheap el).2) e
          intro j hj
          rcases Int.lt_or_le x.last j with hj2 | hj2
          · have a1 := hl3.1 j (.inr hj2)
            have a2 := hl4.1 j (.inr (by omega))
            rw [a1.1, a1.2, a2.1, a2.2]
            exact hag j hj
          · exact hag2 j hj2

/-! ### layouts -/

/-- `f'` is `f` with further base units in the end. -/
def Frame.Continued (f f' : Frame) : Prop := f'.freq = f.freq ∧ f'.o0 = f.o0 ∧ f.n ≤ f'.n

/-- Moving the end of a span does not change the starts of its parts. -/
def Cut.Steady (f f' : Frame) (c : Cut) : Prop :=
  ∀ (s s' : Span) (ss' : List Span), s.first = s'.first → 0 ≤ s.first → s.first ≤ s.last → s.last ≤ s'.last → s.last < f.n → s'.last < f'.n →
    f'.cutSpan c s' = .ok ss' → ∃ ss, f.cutSpan c s = .ok ss ∧ SameStarts s.last ss ss'

mutual
/-- All cuts in a layout have the property `P`. -/
def Layout.CutsAll (P : Cut → Prop) : Layout L → Prop
  | .organizer cut elems => P cut ∧ Layout.CutsAllL P elems
  | .organizerRP cut _ => P cut
  | .pattern _ => True
  | .label _ => True

def Layout.CutsAllL (P : Cut → Prop) : List (Layout L) → Prop
  | [] => True
  | l :: ls => Layout.CutsAll P l ∧ Layout.CutsAllL P ls
end

mutual
theorem Layout.run_continues (f f' : Frame) : ∀ l : Layout L, l.CutsAll (Cut.Steady f f') →
    Step.Continues f.n f'.n (Layout.run f l) (Layout.run f' l)
  | .organizer cut elems => by
    intro hst s s' st st' r' h1 h2 h3 h4 h5 h6 h7 hag hh hfit e
    simp only [Layout.CutsAll] at hst
    simp only [Layout.run] at e ⊢
    cases hc : f'.cutSpan cut s' with
    | error er => rw [hc] at e; cases e
    | ok ss' =>
      rw [hc] at e
      obtain ⟨ss, hc', hs⟩ := hst.1 s s' ss' h1 h3 h4 h5 h6 h7 hc
      rw [hc']
      simp only at e ⊢
      have ht' := (Frame.cutSpan_tiles hc).2.2
      rw [← h1] at ht'
      have hrel := Layout.runAll_continues f f' elems hst.2
      exact zipRun_continues ss (c' := Cycle.start (Layout.runAll f' elems)) (Frame.cutSpan_tiles hc').2.2 ht' h5 h3 h6 h7 hs ⟨hrel, hrel⟩
        (Layout.runAll_local f' elems) (Layout.runAll_local f' elems) hag hh hfit e
  | .organizerRP cut i => by
    intro hst s s' st st' r' h1 h2 h3 h4 h5 h6 h7 hag hh hfit e
    simp only [Layout.CutsAll] at hst
    simp only [Layout.run] at e ⊢
    cases hc : f'.cutSpan cut s' with
    | error er => rw [hc] at e; cases e
    | ok ss' =>
      rw [hc] at e
      obtain ⟨ss, hc', hs⟩ := hst s s' ss' h1 h3 h4 h5 h6 h7 hc
      rw [hc']
      simp only at e ⊢
      have ht' := (Frame.cutSpan_tiles hc).2.2
      rw [← h1] at ht'
      exact zipRunRP_continues ss (Frame.cutSpan_tiles hc').2.2 ht' h5 h3 hs hag hh hfit e
  | .pattern p => by intro _; simp only [Layout.run]; exact applyPattern_continues _ _ p
  | .label l => by intro _; simp only [Layout.run]; exact makeCompound_continues _ _ l

theorem Layout.runAll_continues (f f' : Frame) : ∀ ls : List (Layout L), Layout.CutsAllL (Cut.Steady f f') ls →
    Rel (fun x y => Step.Continues f.n f'.n x y ∧ Step.Local x ∧ Step.Local y) (Layout.runAll f ls) (Layout.runAll f' ls)
  | [] => by intro _; exact .nil
  | l :: ls => by
    intro h
    simp only [Layout.CutsAllL] at h
    simp only [Layout.runAll]
    exact .cons ⟨Layout.run_continues f f' l h.1, Layout.run_local f l, Layout.run_local f' l⟩ (Layout.runAll_continues f f' ls h.2)
end

mutual
theorem Layout.CutsAll.mono {P Q : Cut → Prop} (hPQ : ∀ c, P c → Q c) : ∀ {l : Layout L}, l.CutsAll P → l.CutsAll Q
  | .organizer cut elems => by
    intro h
    simp only [Layout.CutsAll] at h ⊢
    exact ⟨hPQ _ h.1, Layout.CutsAllL.mono hPQ h.2⟩
  | .organizerRP cut i => by
    intro h
    simp only [Layout.CutsAll] at h ⊢
    exact hPQ _ h
  | .pattern p => by intro h; simp only [Layout.CutsAll]
  | .label p => by intro h; simp only [Layout.CutsAll]

theorem Layout.CutsAllL.mono {P Q : Cut → Prop} (hPQ : ∀ c, P c → Q c) : ∀ {ls : List (Layout L)}, Layout.CutsAllL P ls → Layout.CutsAllL Q ls
  | [] => by intro h; simp only [Layout.CutsAllL]
  | l :: ls => by
    intro h
    simp only [Layout.CutsAllL] at h ⊢
    exact ⟨Layout.CutsAll.mono hPQ h.1, Layout.CutsAllL.mono hPQ h.2⟩
end

/-! ### which cuts are steady -/

theorem Frame.Continued.unitStart {f f' : Frame} (h : f.Continued f') (i : Int) : f'.unitStart i = f.unitStart i := by
  unfold Frame.unitStart Frame.ord
  rw [h.1, h.2.1]

theorem Frame.Continued.unitEnd {f f' : Frame} (h : f.Continued f') (i : Int) : f'.unitEnd i = f.unitEnd i := by
  unfold Frame.unitEnd Frame.ord
  rw [h.1, h.2.1]

/-- Same starts from the characterisation of the starts and of the dangle of the first span. -/
theorem sameStarts_of {s s' : Span} {ss ss' : List Span} {x : Int} (ht : Tiles s.first s.last ss) (ht' : Tiles s'.first s'.last ss')
    (hf : s.first = s'.first) (hk : SkipsLeft x ss) (hk' : SkipsLeft x ss')
    (h : ∀ i, s.first < i → i ≤ s.last → ((∃ y ∈ ss, y.first = i) ↔ ∃ y ∈ ss', y.first = i)) : SameStarts s.last ss ss' := by
  have key : ∀ {a b : Int} {zs : List Span}, Tiles a b zs → SkipsLeft x zs → ∀ i k, (∃ y ∈ zs, y.first = i ∧ y.skipLeft = k) ↔
      ((i = a ∧ k = x) ∨ (a < i ∧ k = 0 ∧ ∃ y ∈ zs, y.first = i)) := by
    intro a b zs hz hzk i k
    cases zs with
    | nil => exact hz.elim
    | cons z zs =>
      have hz1 := hz.head
      have hzk' : z.skipLeft = x ∧ ∀ t ∈ zs, t.skipLeft = 0 := hzk
      have htl : ∀ y ∈ zs, a < y.first := by
        intro y hy
        rcases hz.tail with ⟨e, _⟩ | ht
        · rw [e] at hy; cases hy
        · have := ht.mem hy; omega
      constructor
      · rintro ⟨y, hy, rfl, rfl⟩
        rcases List.mem_cons.1 hy with rfl | hy'
        · exact .inl ⟨hz1.1, hzk'.1⟩
        · exact .inr ⟨htl y hy', hzk'.2 y hy', y, hy, rfl⟩
      · rintro (⟨rfl, rfl⟩ | ⟨h1, rfl, y, hy, rfl⟩)
        · exact ⟨z, by simp, hz1.1, hzk'.1⟩
        · rcases List.mem_cons.1 hy with rfl | hy'
          · omega
          · exact ⟨y, hy, rfl, hzk'.2 y hy'⟩
  intro i k hi
  rw [key ht hk, key ht' hk', hf]
  constructor
  · rintro (h1 | ⟨h1, h2, h3⟩)
    · exact .inl h1
    · exact .inr ⟨h1, h2, (h i (by omega) hi).1 h3⟩
  · rintro (h1 | ⟨h1, h2, h3⟩)
    · exact .inl h1
    · exact .inr ⟨h1, h2, (h i (by omega) hi).2 h3⟩

theorem Frame.cutSpan_unacceptable {f : Frame} {s : Span} {m : Marker} {ss : List Span} (h : f.cutSpan (.marker m) s = .ok ss) :
    checkGroupbyFreq f.freq m.each = true := by
  cases hk : checkGroupbyFreq f.freq m.each with
  | true => rfl
  | false =>
    simp only [Frame.cutSpan, Frame.partitionWithMarker, hk, Bool.not_false, if_true, Bind.bind, Except.bind, throw, throwThe,
      MonadExceptOf.throw] at h
    cases h

/-- Calendar markers are steady. -/
theorem steady_calendar {f f' : Frame} (hf : f.Continued f') (each : Freq) : Cut.Steady f f' (.marker ⟨each, []⟩) := by
  intro s s' ss' h1 h2 h3 h4 h5 h6 hc
  have hacc := Frame.cutSpan_unacceptable hc
  simp only at hacc
  obtain ⟨ts', g1, g2, g3, g4⟩ := Frame.partition_calendar (f := f') (s := s') hacc (by omega) (by omega) h6
  obtain ⟨ts, k1, k2, k3, k4⟩ := Frame.partition_calendar (f := f) (s := s) (hf.1 ▸ hacc) h2 h3 h5
  have : ss' = ts' := by
    have := hc.symm.trans (show f'.cutSpan (.marker ⟨each, []⟩) s' = _ from g1)
    cases this; rfl
  subst this
  refine ⟨ts, k1, ?_⟩
  rw [hf.1, hf.unitStart, ← h1] at g3
  refine sameStarts_of k2 g2 h1 k3 g3 ?_
  intro i i1 i2
  rw [k4 i i1 i2, g4 i (by omega) (by omega), hf.unitStart, hf.unitStart, hf.unitEnd, ← h1]

/-- Marks are steady if those in the last base unit of the shorter frame are noticed. -/
theorem steady_marks {f f' : Frame} (hf : f.Continued f') {ts : List Time}
    (hts : ∀ t ∈ ts, f.unitStart ((f.n : Int) - 1) + nsSec ≤ t → f.unitEnd ((f.n : Int) - 1) < t)
    (hts' : ∀ t ∈ ts, f'.unitStart ((f'.n : Int) - 1) + nsSec ≤ t → f'.unitEnd ((f'.n : Int) - 1) < t) :
    Cut.Steady f f' (.marks ts) := by
  have hn : ∀ (g : Frame), (∀ t ∈ ts, g.unitStart ((g.n : Int) - 1) + nsSec ≤ t → g.unitEnd ((g.n : Int) - 1) < t) → ∀ i t, t ∈ ts →
      ((g.unitStart i ≤ t ∧ t < g.noticedEnd i) ↔ (g.unitStart i ≤ t ∧ t ≤ g.unitEnd i)) := by
    intro g hg i t ht
    have h1 := g.noticedEnd_le i
    constructor
    · rintro ⟨a, b⟩; exact ⟨a, by omega⟩
    · rintro ⟨a, b⟩
      refine ⟨a, ?_⟩
      unfold Frame.noticedEnd
      split
      · rename_i hi
        rw [hi] at b a ⊢
        have := hg t ht
        omega
      · rw [Frame.unitEnd_eq] at b; omega
  intro s s' ss' h1 h2 h3 h4 h5 h6 hc
  have hc' : f'.createSubspans s' ts = .ok ss' := hc
  obtain ⟨ss, hss⟩ := Frame.createSubspans_exists ts h2 h3 h5
  refine ⟨ss, hss, ?_⟩
  have k := Frame.createSubspans_first hss
  have k' := Frame.createSubspans_first hc'
  have z : ∀ {g : Frame} {s : Span} {ss : List Span}, g.createSubspans s ts = .ok ss → SkipsLeft 0 ss := by
    intro g s ss h
    obtain ⟨_, _, _, rfl⟩ := Frame.createSubspans_ok_iff.1 h
    have := spansBetween_skip s.first s.last (sortedSet (g.getLocVectorized ts s.first s.last))
    generalize spansBetween s.first s.last (sortedSet (g.getLocVectorized ts s.first s.last)) = zs at this
    cases zs with
    | nil => trivial
    | cons x r => exact ⟨(this x (by simp)).1, fun t ht => (this t (by simp [ht])).1⟩
  refine sameStarts_of (Frame.createSubspans_tiles hss).2.2 (Frame.createSubspans_tiles hc').2.2 h1 (z hss) (z hc') ?_
  intro i i1 i2
  rw [k, k']
  have e : (∃ t ∈ ts, f.unitStart i ≤ t ∧ t < f.noticedEnd i) ↔ (∃ t ∈ ts, f'.unitStart i ≤ t ∧ t < f'.noticedEnd i) := by
    constructor
    · rintro ⟨t, ht, h⟩
      refine ⟨t, ht, (hn f' hts' i t ht).2 ?_⟩
      rw [hf.unitStart, hf.unitEnd]
      exact (hn f hts i t ht).1 h
    · rintro ⟨t, ht, h⟩
      refine ⟨t, ht, (hn f hts i t ht).2 ?_⟩
      rw [← hf.unitStart, ← hf.unitEnd]
      exact (hn f' hts' i t ht).1 h
  constructor
  · rintro (h | ⟨_, _, h⟩)
    · omega
    · exact .inr ⟨by omega, by omega, e.1 h⟩
  · rintro (h | ⟨_, _, h⟩)
    · omega
    · exact .inr ⟨by omega, by omega, e.2 h⟩

end TB
