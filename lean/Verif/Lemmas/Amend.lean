import Verif.Lemmas.Timeline2
/-! Laws of amendments. -/
namespace TB
set_option linter.unusedSectionVars false
variable {L : Type}

/-- The amendments which hit the timeline, with positions of workshifts. -/
def Timeline.located (tl : Timeline L) (items : List (Time × L)) : List (Int × L) :=
  items.filterMap (fun p => match tl.wsPosition p.1 with
    | .ok k => some (k, p.2)
    | .error _ => none)

theorem Timeline.located_cons_ok {tl : Timeline L} {t : Time} {v : L} {items : List (Time × L)} {k : Int}
    (h : tl.wsPosition t = .ok k) : tl.located ((t, v) :: items) = (k, v) :: tl.located items := by
  simp [Timeline.located, h]

theorem Timeline.located_cons_error {tl : Timeline L} {t : Time} {v : L} {items : List (Time × L)} {e : Err}
    (h : tl.wsPosition t = .error e) : tl.located ((t, v) :: items) = tl.located items := by
  simp [Timeline.located, h]

theorem any_fst_iff (acc : List (Int × L)) (k : Int) :
    acc.any (fun p => p.1 == k) = true ↔ k ∈ acc.map Prod.fst := by
  simp

theorem Timeline.WF.amendLocate_ignore {tl : Timeline L} (wf : tl.WF) (items : List (Time × L)) :
    ∀ acc : List (Int × L), (acc.map Prod.fst).Nodup →
      (((acc ++ tl.located items).map Prod.fst).Nodup ∧
          tl.amendLocate false items acc = .ok (acc ++ tl.located items)) ∨
      (¬ ((acc ++ tl.located items).map Prod.fst).Nodup ∧ tl.amendLocate false items acc = .error .keyError) := by
  induction items with
  | nil => intro acc h; left; simpa [Timeline.located, Timeline.amendLocate] using h
  | cons p items ih =>
    intro acc h
    obtain ⟨t, v⟩ := p
    unfold Timeline.amendLocate
    cases hp : tl.wsPosition t with
    | error e =>
      have := ((wf.wsPosition_error_iff t e).1 hp).1
      subst this
      rw [Timeline.located_cons_error hp]
      simp only [Bool.false_eq_true, if_false]
      exact ih acc h
    | ok k =>
      rw [Timeline.located_cons_ok hp]
      simp only
      by_cases hm : k ∈ acc.map Prod.fst
      · rw [if_pos ((any_fst_iff acc k).2 hm)]
        right
        refine ⟨?_, rfl⟩
        intro hn
        rw [List.map_append, List.map_cons, List.nodup_append] at hn
        exact hn.2.2 k hm k (by simp) rfl
      · rw [if_neg (by rw [any_fst_iff]; exact hm)]
        have h' : ((acc ++ [(k, v)]).map Prod.fst).Nodup := by
          rw [List.map_append, List.nodup_append]
          refine ⟨h, by simp, ?_⟩
          intro a ha b hb
          simp at hb; subst hb
          intro hab; subst hab; exact hm ha
        have := ih (acc ++ [(k, v)]) h'
        simpa [List.append_assoc] using this

theorem Timeline.WF.amendLocate_raise {tl : Timeline L} (wf : tl.WF) (items : List (Time × L)) :
    ∀ acc : List (Int × L), (acc.map Prod.fst).Nodup →
      ((((acc ++ tl.located items).map Prod.fst).Nodup ∧ ∀ p ∈ items, ∃ k, tl.wsPosition p.1 = .ok k) ∧
          tl.amendLocate true items acc = .ok (acc ++ tl.located items)) ∨
      ((∃ p ∈ items, tl.wsPosition p.1 = .error .outOfBounds) ∧ tl.amendLocate true items acc = .error .outOfBounds) ∨
      (¬ ((acc ++ tl.located items).map Prod.fst).Nodup ∧ tl.amendLocate true items acc = .error .keyError) := by
  induction items with
  | nil => intro acc h; left; simpa [Timeline.located, Timeline.amendLocate] using h
  | cons p items ih =>
    intro acc h
    obtain ⟨t, v⟩ := p
    unfold Timeline.amendLocate
    cases hp : tl.wsPosition t with
    | error e =>
      have := ((wf.wsPosition_error_iff t e).1 hp).1
      subst this
      right; left
      exact ⟨⟨(t, v), by simp, hp⟩, by simp⟩
    | ok k =>
      rw [Timeline.located_cons_ok hp]
      simp only
      by_cases hm : k ∈ acc.map Prod.fst
      · rw [if_pos ((any_fst_iff acc k).2 hm)]
        right; right
        refine ⟨?_, rfl⟩
        intro hn
        rw [List.map_append, List.map_cons, List.nodup_append] at hn
        exact hn.2.2 k hm k (by simp) rfl
      · rw [if_neg (by rw [any_fst_iff]; exact hm)]
        have h' : ((acc ++ [(k, v)]).map Prod.fst).Nodup := by
          rw [List.map_append, List.nodup_append]
          refine ⟨h, by simp, ?_⟩
          intro a ha b hb
          simp at hb; subst hb
          intro hab; subst hab; exact hm ha
        have := ih (acc ++ [(k, v)]) h'
        rw [List.append_assoc] at this
        rcases this with ⟨⟨h1, h2⟩, h3⟩ | ⟨⟨q, h1, h2⟩, h3⟩ | ⟨h1, h2⟩
        · left
          refine ⟨⟨h1, ?_⟩, h3⟩
          intro q hq
          rcases List.mem_cons.1 hq with hq | hq
          · subst hq; exact ⟨k, hp⟩
          · exact h2 q hq
        · right; left; exact ⟨⟨q, by simp [h1], h2⟩, h3⟩
        · right; right; exact ⟨h1, h2⟩

theorem length_ilocAssign (items : List (Int × L)) : ∀ ls : List L, (ilocAssign ls items).length = ls.length := by
  induction items with
  | nil => intro ls; rfl
  | cons p items ih => intro ls; simp only [ilocAssign, List.foldl_cons] at ih ⊢; rw [ih]; simp

theorem ilocAssign_get_notin (items : List (Int × L)) : ∀ (ls : List L) (k : Nat),
    (∀ p ∈ items, p.1.toNat ≠ k) → (ilocAssign ls items)[k]? = ls[k]? := by
  induction items with
  | nil => intro ls k _; rfl
  | cons p items ih =>
    intro ls k h
    have h1 := ih (ls.set p.1.toNat p.2) k (fun q hq => h q (by simp [hq]))
    simp only [ilocAssign, List.foldl_cons] at h1 ⊢
    rw [h1, List.getElem?_set_ne (h p (by simp))]

theorem ilocAssign_get_in (items : List (Int × L)) : ∀ (ls : List L), (items.map Prod.fst).Nodup →
    (∀ p ∈ items, 0 ≤ p.1 ∧ p.1 < ls.length) → ∀ p ∈ items, (ilocAssign ls items)[p.1.toNat]? = some p.2 := by
  induction items with
  | nil => intro ls _ _ p hp; simp at hp
  | cons q items ih =>
    intro ls hn hr p hp
    rw [List.map_cons, List.nodup_cons] at hn
    have hq := hr q (by simp)
    rcases List.mem_cons.1 hp with hp | hp
    · subst hp
      have h1 := ilocAssign_get_notin items (ls.set p.1.toNat p.2) p.1.toNat (by
        intro x hx heq
        have h2 := hr x (by simp [hx])
        have h3 : x.1 = p.1 := by omega
        exact hn.1 (List.mem_map.2 ⟨x, hx, h3⟩))
      simp only [ilocAssign, List.foldl_cons] at h1 ⊢
      rw [h1, List.getElem?_set_self (by omega)]
    · have h1 := ih (ls.set q.1.toNat q.2) hn.2 (by
        intro x hx; have := hr x (by simp [hx]); simpa using this) p hp
      simpa only [ilocAssign, List.foldl_cons] using h1

theorem Timeline.WF.mem_located {tl : Timeline L} (_wf : tl.WF) {items : List (Time × L)} {k : Int} {v : L} :
    (k, v) ∈ tl.located items ↔ ∃ t, (t, v) ∈ items ∧ tl.wsPosition t = .ok k := by
  unfold Timeline.located
  rw [List.mem_filterMap]
  constructor
  · rintro ⟨p, hp, h⟩
    split at h
    · rename_i k' hk
      simp at h; obtain ⟨rfl, rfl⟩ := h
      exact ⟨p.1, hp, hk⟩
    · simp at h
  · rintro ⟨t, h1, h2⟩
    exact ⟨(t, v), h1, by simp [h2]⟩

theorem Timeline.amend_frame {tl tl' : Timeline L} {items : List (Time × L)} {r : Bool} (h : tl.amend items r = .ok tl') :
    tl'.frame = tl.frame ∧ tl'.wsIdx = tl.wsIdx ∧ tl'.frameband = tl.frameband ∧ tl'.refEnd = tl.refEnd ∧
    tl'.labels.length = tl.labels.length := by
  unfold Timeline.amend at h
  split at h
  · simp at h
  · simp at h; subst h; simp [length_ilocAssign]

theorem Timeline.amend_wf {tl tl' : Timeline L} {items : List (Time × L)} {r : Bool} (wf : tl.WF)
    (h : tl.amend items r = .ok tl') : tl'.WF := by
  obtain ⟨h1, h2, h3, h4, h5⟩ := Timeline.amend_frame h
  constructor
  · rw [h1]; exact wf.npos
  · rw [h2]; exact wf.sorted
  · rw [h2, h1]; exact wf.range
  · rw [h2]; exact wf.zero_mem
  · rw [h3, h1]; exact wf.fb_len
  · simp only [h3, h2]; exact wf.fb
  · rw [h5, h2]; exact wf.labels_len

/-- Amending: success is decided by the positions hit, the labels of the workshifts hit are replaced, the
others stay. -/
theorem Timeline.WF.amend_ok_iff {tl tl' : Timeline L} (wf : tl.WF) {items : List (Time × L)} :
    tl.amend items = .ok tl' ↔
      (((tl.located items).map Prod.fst).Nodup ∧ tl' = { tl with labels := ilocAssign tl.labels (tl.located items) }) := by
  unfold Timeline.amend
  rcases wf.amendLocate_ignore items [] (by simp) with ⟨h1, h2⟩ | ⟨h1, h2⟩
  · rw [h2]
    simp only [List.nil_append] at h1 ⊢
    simp only [Except.ok.injEq, h1, true_and]
    exact eq_comm
  · rw [h2]
    simp only [List.nil_append] at h1 ⊢
    simp [h1]

theorem Timeline.WF.amend_error_iff {tl : Timeline L} (wf : tl.WF) {items : List (Time × L)} {e : Err} :
    tl.amend items = .error e ↔ (e = .keyError ∧ ¬ ((tl.located items).map Prod.fst).Nodup) := by
  unfold Timeline.amend
  rcases wf.amendLocate_ignore items [] (by simp) with ⟨h1, h2⟩ | ⟨h1, h2⟩
  · rw [h2]
    simp only [List.nil_append] at h1 ⊢
    simp [h1]
  · rw [h2]
    simp only [List.nil_append] at h1 ⊢
    simp [h1]; exact eq_comm

theorem Timeline.WF.amend_labels {tl tl' : Timeline L} (wf : tl.WF) {items : List (Time × L)} (h : tl.amend items = .ok tl') :
    (∀ t v k, (t, v) ∈ items → tl.wsPosition t = .ok k → tl'.labels[k.toNat]? = some v) ∧
    (∀ k : Int, 0 ≤ k → (∀ t v, (t, v) ∈ items → tl.wsPosition t ≠ .ok k) → tl'.labels[k.toNat]? = tl.labels[k.toNat]?) := by
  obtain ⟨hn, rfl⟩ := wf.amend_ok_iff.1 h
  have hr : ∀ p ∈ tl.located items, 0 ≤ p.1 ∧ p.1 < tl.labels.length := by
    intro p hp
    obtain ⟨t, _, hk⟩ := wf.mem_located.1 (show (p.1, p.2) ∈ _ from hp)
    have := (wf.wsPosition_ok_iff t p.1).1 hk
    rw [wf.labels_len]; unfold Timeline.len at this; exact ⟨this.1, this.2.1⟩
  constructor
  · intro t v k hm hk
    have hl : (k, v) ∈ tl.located items := wf.mem_located.2 ⟨t, hm, hk⟩
    exact ilocAssign_get_in _ _ hn hr (k, v) hl
  · intro k hk0 hk
    apply ilocAssign_get_notin
    intro p hp heq
    obtain ⟨t, h1, h2⟩ := wf.mem_located.1 (show (p.1, p.2) ∈ _ from hp)
    have h3 := (hr p hp).1
    have : p.1 = k := by omega
    rw [this] at h2
    exact hk t p.2 h1 h2

end TB
