import Verif.Model.Calendars
/-! Dictionaries. -/
namespace TB
variable {K V : Type} [DecidableEq K]

theorem Dict.get?_nil (k : K) : Dict.get? ([] : Dict K V) k = none := rfl

theorem Dict.get?_cons (a : K) (v : V) (d : Dict K V) (k : K) :
    Dict.get? ((a, v) :: d) k = if a = k then some v else Dict.get? d k := by
  unfold Dict.get?
  by_cases h : a = k <;> simp [h]

theorem Dict.has_eq (d : Dict K V) (k : K) : d.has k = (d.get? k).isSome := by
  unfold Dict.has Dict.get?
  induction d with
  | nil => rfl
  | cons x xs ih => by_cases h : x.1 = k <;> simp_all

theorem Dict.get?_append (d e : Dict K V) (k : K) : Dict.get? (d ++ e) k = (d.get? k).or (e.get? k) := by
  unfold Dict.get?
  rw [List.find?_append]
  cases List.find? (fun x => decide (x.1 = k)) d <;> simp

theorem Dict.get?_replace (d : Dict K V) (k k' : K) (v : V) :
    Dict.get? (d.map (fun x => if x.1 = k then (k, v) else x)) k' = if k' = k then (d.get? k).map (fun _ => v) else d.get? k' := by
  induction d with
  | nil => simp [Dict.get?_nil]
  | cons x xs ih =>
    rcases x with ⟨a, w⟩
    simp only [List.map_cons]
    by_cases h : a = k
    · subst h
      simp only [if_true, Dict.get?_cons]
      rw [ih]
      by_cases h2 : k' = a
      · simp [h2]
      · simp [h2, Ne.symm h2]
    · simp only [h, if_false, Dict.get?_cons]
      rw [ih]
      by_cases h2 : k' = k
      · subst h2; simp [h]
      · simp [h2]

/-- Reading after writing. -/
theorem Dict.get?_set (d : Dict K V) (k k' : K) (v : V) : (d.set k v).get? k' = if k' = k then some v else d.get? k' := by
  unfold Dict.set
  have e := Dict.has_eq d k
  unfold Dict.has at e
  split
  · rename_i h
    rw [Dict.get?_replace]
    by_cases h2 : k' = k
    · simp only [h2, if_true]
      rw [h] at e
      obtain ⟨w, hw⟩ := Option.isSome_iff_exists.1 e.symm
      rw [hw]; rfl
    · simp [h2]
  · rename_i h
    rw [Dict.get?_append, Dict.get?_cons, Dict.get?_nil]
    by_cases h2 : k' = k
    · simp only [h2, if_true]
      have : d.get? k = none := by
        have hf : (d.any fun x => decide (x.1 = k)) = false := Bool.eq_false_iff.2 h
        rw [hf] at e
        exact Option.isNone_iff_eq_none.1 (by simpa using e.symm)
      rw [this]; rfl
    · simp [h2, Ne.symm h2]

theorem Dict.mem_keys (d : Dict K V) (k : K) : k ∈ d.map Prod.fst ↔ ∃ v, d.get? k = some v := by
  induction d with
  | nil => simp [Dict.get?_nil]
  | cons x xs ih =>
    rcases x with ⟨a, w⟩
    rw [Dict.get?_cons, List.map_cons, List.mem_cons, ih]
    by_cases h : a = k
    · subst h; simp
    · simp [h, Ne.symm h]

/-- The keys are different. -/
def Dict.Distinct (d : Dict K V) : Prop := (d.map Prod.fst).Nodup

theorem Dict.mem_iff {d : Dict K V} (h : d.Distinct) (k : K) (v : V) : (k, v) ∈ d ↔ d.get? k = some v := by
  induction d with
  | nil => simp [Dict.get?_nil]
  | cons x xs ih =>
    rcases x with ⟨a, w⟩
    unfold Dict.Distinct at h ih
    rw [List.map_cons, List.nodup_cons] at h
    rw [Dict.get?_cons, List.mem_cons, ih h.2]
    by_cases h1 : a = k
    · subst h1
      have : Dict.get? xs a = none := by
        cases hg : Dict.get? xs a with
        | none => rfl
        | some w => exact absurd ((Dict.mem_keys xs a).2 ⟨w, hg⟩) h.1
      simp [this, eq_comm]
    · simp only [Prod.mk.injEq, h1, if_false]
      constructor
      · rintro (⟨rfl, _⟩ | h2)
        · exact absurd rfl h1
        · exact h2
      · exact .inr

theorem Dict.set_keys (d : Dict K V) (k : K) (v : V) :
    (d.set k v).map Prod.fst = if d.has k then d.map Prod.fst else d.map Prod.fst ++ [k] := by
  unfold Dict.set Dict.has
  split
  · rw [List.map_map]
    apply List.map_congr_left
    intro x _
    by_cases h : x.1 = k <;> simp [h]
  · simp

theorem Dict.Distinct.set {d : Dict K V} (h : d.Distinct) (k : K) (v : V) : (d.set k v).Distinct := by
  unfold Dict.Distinct at *
  rw [Dict.set_keys]
  split
  · exact h
  · rename_i h1
    rw [Dict.has_eq] at h1
    rw [List.nodup_append]
    refine ⟨h, by simp, ?_⟩
    intro a ha b hb
    rw [List.mem_singleton] at hb
    subst hb
    rintro rfl
    obtain ⟨w, hw⟩ := (Dict.mem_keys d a).1 ha
    rw [hw] at h1; exact h1 rfl

omit [DecidableEq K] in
theorem Dict.Distinct.nil : Dict.Distinct ([] : Dict K V) := by simp [Dict.Distinct]

theorem Dict.Distinct.update {d : Dict K V} (h : d.Distinct) (e : List (K × V)) : (d.update e).Distinct := by
  unfold Dict.update
  induction e generalizing d with
  | nil => exact h
  | cons x xs ih => exact ih (h.set _ _)

theorem Dict.Distinct.erase {d : Dict K V} (h : d.Distinct) (k : K) : (d.erase k).Distinct := by
  unfold Dict.Distinct Dict.erase at *
  exact h.sublist (List.filter_sublist.map _)

theorem Dict.update_cons (d : Dict K V) (x : K × V) (e : List (K × V)) : d.update (x :: e) = (d.set x.1 x.2).update e := rfl

theorem Dict.update_append (d : Dict K V) (e e' : List (K × V)) : d.update (e ++ e') = (d.update e).update e' := by
  unfold Dict.update; rw [List.foldl_append]

/-- Reading after an update: the last item with the key counts. -/
theorem Dict.get?_update (d : Dict K V) (e : List (K × V)) (k : K) :
    (d.update e).get? k = (Dict.get? e.reverse k).or (d.get? k) := by
  induction e generalizing d with
  | nil => simp [Dict.update, Dict.get?_nil]
  | cons x xs ih =>
    rcases x with ⟨a, v⟩
    rw [Dict.update_cons, ih, List.reverse_cons, Dict.get?_append, Dict.get?_set, Dict.get?_cons, Dict.get?_nil]
    cases h : Dict.get? xs.reverse k with
    | some w => simp
    | none =>
      by_cases h2 : k = a
      · simp [h2]
      · simp [h2, Ne.symm h2]

/-- Reading after an update with different keys. -/
theorem Dict.get?_update_distinct (d : Dict K V) {e : List (K × V)} (he : Dict.Distinct e) (k : K) :
    (d.update e).get? k = (Dict.get? e k).or (d.get? k) := by
  rw [Dict.get?_update]
  congr 1
  have hr : Dict.Distinct e.reverse := by
    unfold Dict.Distinct at *
    rw [List.map_reverse]; exact List.pairwise_reverse.2 (he.imp Ne.symm)
  apply Option.ext
  intro v
  rw [← Dict.mem_iff hr, ← Dict.mem_iff he, List.mem_reverse]

theorem Dict.get?_erase (d : Dict K V) (k k' : K) : (d.erase k).get? k' = if k' = k then none else d.get? k' := by
  unfold Dict.erase
  induction d with
  | nil => simp [Dict.get?_nil]
  | cons x xs ih =>
    rcases x with ⟨a, v⟩
    rw [List.filter_cons]
    by_cases h : a = k
    · subst h
      simp only [ne_eq, not_true_eq_false, decide_false, Bool.false_eq_true, if_false]
      simp only [ne_eq] at ih
      rw [ih, Dict.get?_cons]
      by_cases h2 : k' = a
      · simp [h2]
      · simp [h2, Ne.symm h2]
    · simp only [ne_eq, h, not_false_eq_true, decide_true, if_true, Dict.get?_cons]
      simp only [ne_eq] at ih
      rw [ih]
      by_cases h2 : a = k'
      · subst h2; simp [h]
      · simp [h2]

/-- All items of a comprehension with a constant label. -/
theorem Dict.get?_const (ks : List K) (l : V) (k : K) :
    Dict.get? (ks.map (fun a => (a, l))) k = if k ∈ ks then some l else none := by
  induction ks with
  | nil => simp [Dict.get?_nil]
  | cons a as ih =>
    rw [List.map_cons, Dict.get?_cons, ih]
    by_cases h : a = k
    · simp [h]
    · simp [h, Ne.symm h]

theorem tsKeys_get? (d : Dict Time V) (t : Time) : (tsKeys d).get? (.ts t) = d.get? t := by
  unfold tsKeys
  induction d with
  | nil => rfl
  | cons x xs ih =>
    rcases x with ⟨a, v⟩
    rw [List.map_cons, Dict.get?_cons, Dict.get?_cons, ih]
    simp

theorem tsKeys_get?_str (d : Dict Time V) (t : Time) : (tsKeys d).get? (.str t) = none := by
  unfold tsKeys
  induction d with
  | nil => rfl
  | cons x xs ih =>
    rcases x with ⟨a, v⟩
    rw [List.map_cons, Dict.get?_cons, ih]
    simp

theorem tsKeys_distinct {d : Dict Time V} (h : d.Distinct) : (tsKeys d).Distinct := by
  unfold Dict.Distinct tsKeys at *
  rw [List.map_map]
  have : (Prod.fst ∘ fun x : Time × V => (DKey.ts x.1, x.2)) = DKey.ts ∘ Prod.fst := rfl
  rw [this, ← List.map_map]
  exact List.Pairwise.map _ (by intro a b hab h2; exact hab (by simpa using h2)) h

end TB
