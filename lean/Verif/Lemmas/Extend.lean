import Verif.Lemmas.Dict
import Verif.Lemmas.Basic
import Verif.Spec.Extend
/-! Extension of weekends. -/
namespace TB

theorem nodup_length_le {α : Type} [DecidableEq α] : ∀ {xs ys : List α}, xs.Nodup → (∀ x ∈ xs, x ∈ ys) → xs.length ≤ ys.length
  | [], _, _, _ => by simp
  | x :: xs, ys, h, hs => by
    rw [List.nodup_cons] at h
    have hx := hs x List.mem_cons_self
    have := nodup_length_le (ys := ys.erase x) h.2 (by
      intro y hy
      rw [List.mem_erase_of_ne]
      · exact hs y (List.mem_cons_of_mem _ hy)
      · rintro rfl; exact h.1 hy)
    rw [List.length_erase_of_mem hx] at this
    have := List.length_pos_of_mem hx
    simp; omega

theorem pairwise_lt_insertSorted (x : Int) {xs : List Int} (h : xs.Pairwise (· < ·)) (hx : x ∉ xs) : (insertSorted x xs).Pairwise (· < ·) := by
  induction xs with
  | nil => simp [insertSorted]
  | cons y ys ih =>
    rw [List.pairwise_cons] at h
    rw [List.mem_cons, not_or] at hx
    unfold insertSorted
    split
    · rw [List.pairwise_cons]
      refine ⟨?_, List.pairwise_cons.2 h⟩
      intro z hz
      rcases List.mem_cons.1 hz with rfl | hz
      · omega
      · have := h.1 z hz; omega
    · rw [List.pairwise_cons]
      refine ⟨?_, ih h.2 hx.2⟩
      intro z hz
      rcases (mem_insertSorted _ _ _).1 hz with rfl | hz
      · omega
      · exact h.1 z hz

theorem pairwise_lt_sortList {xs : List Int} (h : xs.Nodup) : (sortList xs).Pairwise (· < ·) := by
  induction xs with
  | nil => simp [sortList]
  | cons x xs ih =>
    rw [List.nodup_cons] at h
    show (insertSorted x (sortList xs)).Pairwise _
    exact pairwise_lt_insertSorted x (ih h.2) (by rw [mem_sortList]; exact h.1)

theorem Dict.update_distinct {K V : Type} [DecidableEq K] {d : Dict K V} {e : List (K × V)} (h : Dict.Distinct (d ++ e)) :
    d.update e = d ++ e := by
  induction e generalizing d with
  | nil => simp [Dict.update]
  | cons x xs ih =>
    rw [Dict.update_cons]
    have hn : d.set x.1 x.2 = d ++ [x] := by
      unfold Dict.set
      rw [if_neg]
      intro hany
      rw [List.any_eq_true] at hany
      obtain ⟨y, hy, hyx⟩ := hany
      unfold Dict.Distinct at h
      rw [List.map_append, List.nodup_append] at h
      exact h.2.2 y.1 (List.mem_map_of_mem hy) x.1 (by simp) (by simpa using hyx)
    rw [hn, ih]
    · simp
    · simpa using h

section
variable {V : Type}

theorem freeDay_spec (d : Dict Time V) (step : Int) : ∀ (fuel : Nat) (t : Time),
    ∃ j : Nat, j ≤ fuel ∧ freeDay d step fuel t = t + (step * j) * nsDay ∧ (∀ i : Nat, i < j → d.has (t + (step * i) * nsDay) = true) ∧
      (j < fuel → d.has (freeDay d step fuel t) = false)
  | 0, t => ⟨0, by omega, by simp [freeDay], by omega, by omega⟩
  | fuel + 1, t => by
    unfold freeDay
    by_cases h : d.has t = true
    · obtain ⟨j, hj, e, h1, h2⟩ := freeDay_spec d step fuel (t + step * nsDay)
      rw [if_pos h]
      have ea : ∀ i : Nat, t + step * nsDay + step * (i : Int) * nsDay = t + step * ((i + 1 : Nat) : Int) * nsDay := by
        intro i
        rw [Int.add_assoc, ← Int.add_mul]
        congr 2
        push_cast
        rw [Int.mul_add]; omega
      refine ⟨j + 1, by omega, by rw [e, ea], ?_, fun h3 => h2 (by omega)⟩
      intro i hi
      rcases i with _ | i
      · simpa using h
      · have := h1 i (by omega)
        rw [ea] at this
        exact this
    · rw [if_neg h]
      exact ⟨0, by omega, by simp, by omega, fun _ => by simpa using h⟩

/-- The search ends with a day which is not in the dictionary: no more days are visited than the dictionary has. -/
theorem freeDay_free (d : Dict Time V) {step : Int} (hs : step = 1 ∨ step = -1) (t : Time) :
    ∃ j : Nat, freeDay d step (d.length + 1) t = t + (step * j) * nsDay ∧ (∀ i : Nat, i < j → d.has (t + (step * i) * nsDay) = true) ∧
      d.has (t + (step * j) * nsDay) = false := by
  obtain ⟨j, hj, e, h1, h2⟩ := freeDay_spec d step (d.length + 1) t
  have hlt : j < d.length + 1 := by
    apply Classical.byContradiction
    intro hge
    have hje : j = d.length + 1 := by omega
    have hl := nodup_length_le (xs := (List.range j).map (fun (i : Nat) => t + (step * (i : Int)) * nsDay)) (ys := d.map Prod.fst)
      (by
        apply List.Pairwise.map _ _ List.nodup_range
        intro a b hab h
        have : step * (a : Int) = step * (b : Int) := by unfold nsDay at h; omega
        rcases hs with rfl | rfl <;> omega)
      (by
        intro x hx
        rw [List.mem_map] at hx
        obtain ⟨i, hi, rfl⟩ := hx
        rw [List.mem_range] at hi
        have := h1 i hi
        rw [Dict.has_eq] at this
        rw [Dict.mem_keys]
        exact Option.isSome_iff_exists.1 this)
    simp at hl
    omega
  exact ⟨j, e, h1, by rw [← e]; exact h2 hlt⟩

/-- Weekdays by position in the weekend. -/
theorem ConsecutiveDays.search {weekend : List Int} (hc : ConsecutiveDays weekend) {how : String} (hhow : how ∈ ["previous", "next", "nearest"])
    {h : Int} {loc : Nat} (hl : weekend.findIdx? (fun w => decide (w = weekday h)) = some loc) :
    SearchFrom how weekend h (h + (extendSteps how loc weekend.length).1) (extendSteps how loc weekend.length).2 := by
  obtain ⟨h6, w, hw⟩ := hc
  rw [List.findIdx?_eq_some_iff_getElem] at hl
  obtain ⟨hlt, he, -⟩ := hl
  have he : weekend[loc] = weekday h := by simpa using he
  rw [hw] at he
  have hmem : ∀ x, weekday x ∈ weekend ↔ ∃ i : Nat, i < weekend.length ∧ weekday x = (w + i) % 7 := by
    intro x
    rw [List.mem_iff_getElem]
    constructor
    · rintro ⟨i, hi, e⟩; exact ⟨i, hi, by rw [← e, hw]⟩
    · rintro ⟨i, hi, e⟩; exact ⟨i, hi, by rw [e, hw]⟩
  have hafter : DayAfterWeekend weekend h (h + ((weekend.length : Int) - loc)) := by
    refine ⟨by omega, ?_, ?_⟩
    · intro x h1 h2
      rw [hmem]
      refine ⟨(x - h + loc).toNat, by omega, ?_⟩
      unfold weekday at *; omega
    · rw [hmem]
      rintro ⟨i, hi, e⟩
      unfold weekday at *; omega
  have hbefore : DayBeforeWeekend weekend h (h + (-(loc + 1))) := by
    refine ⟨by omega, ?_, ?_⟩
    · intro x h1 h2
      rw [hmem]
      refine ⟨(x - h + loc).toNat, by omega, ?_⟩
      unfold weekday at *; omega
    · rw [hmem]
      rintro ⟨i, hi, e⟩
      unfold weekday at *; omega
  simp only [List.mem_cons, List.not_mem_nil, or_false] at hhow
  unfold extendSteps SearchFrom
  rcases hhow with rfl | rfl | rfl
  · left; exact ⟨rfl, hbefore, rfl⟩
  · right; left; exact ⟨rfl, hafter, rfl⟩
  · right; right
    simp only [show ¬ ("nearest" = "previous") by decide, show ¬ ("nearest" = "next") by decide, if_false]
    refine ⟨trivial, _, _, hbefore, hafter, ?_⟩
    split
    · left; simp only [and_true]; omega
    · right; simp only [and_true]; omega

/-- The loop over the holidays. -/
theorem extendLoop {how : String} (hhow : how ∈ ["previous", "next", "nearest"]) {weekend : List Int} (hc : ConsecutiveDays weekend)
    (label : Option V) (d0 : Dict Time V) (hs : List Int) (d : Dict Time V) (hd : d.Distinct)
    (hkeys : ∀ t, t ∈ d.map Prod.fst → ∃ x : Int, t = x * nsDay)
    (hsub : ∀ h ∈ hs, ∃ v, d0.get? (h * nsDay) = some v)
    (hkeep : ∀ t v, d0.get? t = some v → d.get? t = some v) :
    ∃ added : List (Int × Int), added.map Prod.fst = hs.filter (fun h => decide (weekday h ∈ weekend)) ∧
      Extension how weekend (fun x => ∃ v, d.get? (x * nsDay) = some v) added ∧
      ((hs.map (· * nsDay)).foldl (extendOne how label weekend) d).Distinct ∧
      ∀ t v, ((hs.map (· * nsDay)).foldl (extendOne how label weekend) d).get? t = some v ↔
        (d.get? t = some v ∨ ∃ p ∈ added, t = p.2 * nsDay ∧ label.or (d0.get? (p.1 * nsDay)) = some v) := by
  induction hs generalizing d with
  | nil => exact ⟨[], rfl, .nil, hd, by simp⟩
  | cons h hs ih =>
    rw [List.map_cons, List.foldl_cons]
    have hday : dayOf (h * nsDay) = h := Int.mul_ediv_cancel _ (by decide)
    obtain ⟨v, hv⟩ := hsub h List.mem_cons_self
    cases hl : weekend.findIdx? (fun w => decide (w = weekday h)) with
    | none =>
      have e : extendOne how label weekend d (h * nsDay) = d := by
        unfold extendOne
        rw [hday, hl]
      rw [e]
      obtain ⟨added, h1, h2⟩ := ih d hd hkeys (fun x hx => hsub x (List.mem_cons_of_mem _ hx)) hkeep
      refine ⟨added, ?_, h2⟩
      rw [List.filter_cons, if_neg, h1]
      rw [List.findIdx?_eq_none_iff] at hl
      simp only [decide_eq_true_eq]
      intro hm
      have := hl _ hm
      simp at this
    | some loc =>
      have hsearch := hc.search hhow hl
      have hst : (extendSteps how loc weekend.length).2 = 1 ∨ (extendSteps how loc weekend.length).2 = -1 := by
        unfold extendSteps
        split
        · simp
        · split
          · simp
          · split <;> simp
      obtain ⟨j, e1, e2, e3⟩ := freeDay_free d hst (h * nsDay + (extendSteps how loc weekend.length).1 * nsDay)
      generalize hE : extendSteps how loc weekend.length = st at *
      have hlab : ∃ l, label.or (d0.get? (h * nsDay)) = some l := by
        cases label with
        | none => exact ⟨v, hv⟩
        | some l => exact ⟨l, rfl⟩
      obtain ⟨l, hl'⟩ := hlab
      have hgd : label.or (d.get? (h * nsDay)) = some l := by
        rw [hkeep _ _ hv]; rw [hv] at hl'; exact hl'
      have ea : ∀ i : Nat, h * nsDay + st.1 * nsDay + st.2 * (i : Int) * nsDay = (h + st.1 + st.2 * i) * nsDay := by
        intro i; rw [Int.add_mul, Int.add_mul]
      rw [ea] at e1 e3
      have hfree : d.get? ((h + st.1 + st.2 * j) * nsDay) = none := by
        rw [Dict.has_eq] at e3
        exact Option.isNone_iff_eq_none.1 (by simpa using e3)
      have e : extendOne how label weekend d (h * nsDay) = d.set ((h + st.1 + st.2 * j) * nsDay) l := by
        unfold extendOne
        rw [hday, hl]
        simp only [hgd, hE, e1]
      rw [e]
      obtain ⟨added, h1, h2, h3, h4⟩ := ih (d.set ((h + st.1 + st.2 * j) * nsDay) l) (hd.set _ _)
        (by
          intro t ht
          rw [Dict.mem_keys] at ht
          obtain ⟨w, hw⟩ := ht
          rw [Dict.get?_set] at hw
          split at hw
          · rename_i ht; exact ⟨_, ht⟩
          · exact hkeys t ((Dict.mem_keys _ _).2 ⟨w, hw⟩))
        (fun x hx => hsub x (List.mem_cons_of_mem _ hx))
        (by
          intro t w hw
          rw [Dict.get?_set, if_neg]
          · exact hkeep t w hw
          · rintro rfl
            have := hkeep _ _ hw
            rw [hfree] at this; cases this)
      refine ⟨(h, h + st.1 + st.2 * j) :: added, ?_, ?_, h3, ?_⟩
      · rw [List.filter_cons, if_pos, List.map_cons, h1]
        rw [List.findIdx?_eq_some_iff_getElem] at hl
        obtain ⟨hlt, he, -⟩ := hl
        have he : weekend[loc] = weekday h := by simpa using he
        simp only [decide_eq_true_eq]
        rw [← he]; exact List.getElem_mem _
      · refine .cons hsearch ?_ ?_ ?_
        · intro i hi
          have := e2 i hi
          rw [ea, Dict.has_eq] at this
          exact Option.isSome_iff_exists.1 this
        · rintro ⟨w, hw⟩
          rw [hfree] at hw; cases hw
        · have et : (fun y => (∃ v, d.get? (y * nsDay) = some v) ∨ y = h + st.1 + st.2 * j) =
              (fun x => ∃ v, Dict.get? (d.set ((h + st.1 + st.2 * j) * nsDay) l) (x * nsDay) = some v) := by
            funext y
            apply propext
            rw [Dict.get?_set]
            by_cases hy : y = h + st.1 + st.2 * j
            · simp [hy]
            · have : ¬ (y * nsDay = (h + st.1 + st.2 * j) * nsDay) := by
                intro hy'; exact hy (Int.eq_of_mul_eq_mul_right (by decide) hy')
              simp [hy, this]
          rw [et]; exact h2
      · intro t w
        rw [h4, Dict.get?_set]
        by_cases ht : t = (h + st.1 + st.2 * j) * nsDay
        · subst ht
          simp only [if_true, hfree, List.mem_cons, exists_eq_or_imp, true_and, hl', reduceCtorEq, false_or]
        · simp only [ht, if_false, List.mem_cons, exists_eq_or_imp, false_and, false_or]

theorem extendWeekends_spec {how : String} (hhow : how ∈ ["previous", "next", "nearest"]) {weekend : List Int} (hc : ConsecutiveDays weekend)
    (label : Option V) (am : List (Time × V)) (hd : Dict.Distinct am) (hday : ∀ x ∈ am, ∃ k : Int, x.1 = k * nsDay) :
    ∃ d added, extendWeekends am how label weekend = .ok d ∧ d.Distinct ∧
      (added.map Prod.fst).Pairwise (· < ·) ∧
      (∀ h : Int, h ∈ added.map Prod.fst ↔ (∃ v, (h * nsDay, v) ∈ am) ∧ weekday h ∈ weekend) ∧
      Extension how weekend (fun x => ∃ v, (x * nsDay, v) ∈ am) added ∧
      ∀ t v, (t, v) ∈ d ↔ ((t, v) ∈ am ∨ ∃ p ∈ added, t = p.2 * nsDay ∧ (label = some v ∨ (label = none ∧ (p.1 * nsDay, v) ∈ am))) := by
  have hu : Dict.update [] am = am := by
    rw [Dict.update_distinct (by simpa using hd)]; simp
  have hkeys : ∀ t, t ∈ am.map Prod.fst → ∃ x : Int, t = x * nsDay := by
    intro t ht
    obtain ⟨x, hx, rfl⟩ := List.mem_map.1 ht
    exact hday x hx
  have hs : ∃ hs : List Int, sortList (am.map Prod.fst) = hs.map (· * nsDay) := by
    refine ⟨(sortList (am.map Prod.fst)).map dayOf, ?_⟩
    rw [List.map_map]
    symm
    conv => rhs; rw [← List.map_id (sortList (am.map Prod.fst))]
    apply List.map_congr_left
    intro t ht
    rw [mem_sortList] at ht
    obtain ⟨x, rfl⟩ := hkeys t ht
    show x * nsDay / nsDay * nsDay = _
    rw [Int.mul_ediv_cancel _ (by decide)]; rfl
  obtain ⟨hs, hhs⟩ := hs
  have hmem : ∀ h : Int, h ∈ hs ↔ ∃ v, (h * nsDay, v) ∈ am := by
    intro h
    have h1 : h ∈ hs ↔ h * nsDay ∈ hs.map (· * nsDay) := by
      constructor
      · exact fun h => List.mem_map_of_mem h
      · intro h'
        obtain ⟨y, hy, e⟩ := List.mem_map.1 h'
        rw [← Int.eq_of_mul_eq_mul_right (by decide) e]; exact hy
    rw [h1, ← hhs, mem_sortList, List.mem_map]
    constructor
    · rintro ⟨x, hx, e⟩; exact ⟨x.2, by rw [← e]; exact hx⟩
    · rintro ⟨v, hv⟩; exact ⟨_, hv, rfl⟩
  have hsort : hs.Pairwise (· < ·) := by
    have := pairwise_lt_sortList hd
    rw [hhs, List.pairwise_map] at this
    exact this.imp (fun h => by unfold nsDay at h; omega)
  obtain ⟨added, h1, h2, h3, h4⟩ := extendLoop hhow hc label am hs am hd hkeys
    (by
      intro h hh
      obtain ⟨v, hv⟩ := (hmem h).1 hh
      exact ⟨v, (Dict.mem_iff hd _ _).1 hv⟩) (fun _ _ h => h)
  refine ⟨_, added, ?_, h3, ?_, ?_, ?_, ?_⟩
  · unfold extendWeekends
    rw [if_neg (fun h => h hhow)]
    simp only [hu, hhs]
  · rw [h1]; exact hsort.filter _
  · intro h
    rw [h1, List.mem_filter, hmem]
    simp
  · simp only [Dict.mem_iff hd]; exact h2
  · intro t v
    rw [Dict.mem_iff h3, h4, Dict.mem_iff hd]
    apply or_congr Iff.rfl
    apply exists_congr
    intro p
    apply and_congr Iff.rfl
    apply and_congr Iff.rfl
    rw [Dict.mem_iff hd]
    cases label <;> simp

end

/-- Position of a day relative to the beginning of the weekend. -/
theorem ConsecutiveDays.mem {weekend : List Int} {w : Int} (h6 : weekend.length ≤ 6)
    (hw : ∀ (i : Nat) (h : i < weekend.length), weekend[i] = (w + i) % 7) (x : Int) :
    weekday x ∈ weekend ↔ (weekday x - w) % 7 < weekend.length := by
  rw [List.mem_iff_getElem]
  constructor
  · rintro ⟨i, hi, e⟩
    rw [hw] at e
    unfold weekday at *; omega
  · intro h
    refine ⟨((weekday x - w) % 7).toNat, by omega, ?_⟩
    rw [hw]
    unfold weekday; omega

/-- The working week adjacent to the weekend: its first day, when the search begins at `e`. -/
theorem SearchFrom.edge {how : String} {weekend : List Int} {w : Int} (h6 : weekend.length ≤ 6)
    (hw : ∀ (i : Nat) (h : i < weekend.length), weekend[i] = (w + i) % 7) {h e dir : Int} (hs : SearchFrom how weekend h e dir) :
    (dir = 1 ∧ e = h - (weekday h - w) % 7 + weekend.length ∧ (weekday h - w) % 7 < weekend.length) ∨
    (dir = -1 ∧ e = h - (weekday h - w) % 7 - 1 ∧ (weekday h - w) % 7 < weekend.length) := by
  have hm := ConsecutiveDays.mem h6 hw
  have ha : ∀ n, DayAfterWeekend weekend h n → n = h - (weekday h - w) % 7 + weekend.length ∧ (weekday h - w) % 7 < weekend.length := by
    rintro n ⟨h1, h2, h3⟩
    have hh := (hm h).1 (h2 h (by omega) h1)
    refine ⟨?_, hh⟩
    rw [hm] at h3
    have h4 := h2 (h - (weekday h - w) % 7 + weekend.length) (by omega)
    rw [hm] at h4
    by_cases hc : h - (weekday h - w) % 7 + weekend.length < n
    · have := h4 hc
      unfold weekday at *; omega
    · unfold weekday at *; omega
  have hb : ∀ n, DayBeforeWeekend weekend h n → n = h - (weekday h - w) % 7 - 1 ∧ (weekday h - w) % 7 < weekend.length := by
    rintro n ⟨h1, h2, h3⟩
    have hh := (hm h).1 (h2 h h1 (by omega))
    refine ⟨?_, hh⟩
    rw [hm] at h3
    by_cases hc : n < h - (weekday h - w) % 7 - 1
    · have h4 := h2 (h - (weekday h - w) % 7 - 1) hc (by omega)
      rw [hm] at h4
      unfold weekday at *; omega
    · unfold weekday at *; omega
  rcases hs with ⟨-, h1, rfl⟩ | ⟨-, h1, rfl⟩ | ⟨-, p, n, h1, h2, ⟨-, rfl, rfl⟩ | ⟨-, rfl, rfl⟩⟩
  · exact .inr ⟨rfl, hb _ h1⟩
  · exact .inl ⟨rfl, ha _ h1⟩
  · exact .inr ⟨rfl, hb _ h1⟩
  · exact .inl ⟨rfl, ha _ h2⟩

/-- The added day is a weekday of a week adjacent to the weekend of the holiday. -/
def AdjacentDay (weekend : List Int) (w : Int) (p : Int × Int) : Prop :=
  let s := p.2 - (weekday p.2 - w) % 7
  weekend.length ≤ (weekday p.2 - w) % 7 ∧ (weekday p.1 - w) % 7 < weekend.length ∧ s ≤ p.1 ∧ p.1 < s + 7 + weekend.length

theorem Extension.adjacent {how : String} {weekend : List Int} {w : Int} (h6 : weekend.length ≤ 6)
    (hw : ∀ (i : Nat) (h : i < weekend.length), weekend[i] = (w + i) % 7) (given : List Int)
    (hroom : ∀ x : Int, (given.filter (fun a => decide (x ≤ a ∧ a < x + 7 + weekend.length))).length ≤ 7 - weekend.length)
    {taken : Int → Prop} {added : List (Int × Int)} (hx : Extension how weekend taken added) :
    ∀ prev : List (Int × Int), (∀ x, taken x ↔ x ∈ given ∨ x ∈ prev.map Prod.snd) → (∀ p ∈ prev, p.1 ∈ given ∧ AdjacentDay weekend w p) →
      (∀ p ∈ added, p.1 ∈ given) → ((prev ++ added).map Prod.fst).Nodup → ∀ p ∈ added, AdjacentDay weekend w p := by
  induction hx with
  | nil => intro _ _ _ _ _ p hp; cases hp
  | @cons taken h e dir j rest hs hj hn hr ih =>
    intro prev ht hp hg hnd
    have hA : AdjacentDay weekend w (h, e + dir * j) := by
      have hedge := hs.edge h6 hw
      -- the first day of the working week
      obtain ⟨s, hs1, hs2, hs3⟩ : ∃ s : Int, (weekday s - w) % 7 = weekend.length ∧
          ((dir = 1 ∧ e = s ∧ s - weekend.length ≤ h ∧ h < s) ∨ (dir = -1 ∧ e = s + 6 - weekend.length ∧ e < h ∧ h ≤ e + weekend.length)) ∧
          (weekday h - w) % 7 < weekend.length := by
        rcases hedge with ⟨h1, h2, h3⟩ | ⟨h1, h2, h3⟩
        · refine ⟨e, ?_, .inl ⟨h1, rfl, by omega, by omega⟩, h3⟩
          rw [h2]; unfold weekday at *; omega
        · refine ⟨e - 6 + weekend.length, ?_, .inr ⟨h1, by omega, by omega, by omega⟩, h3⟩
          rw [h2]; unfold weekday at *; omega
      have hjm : (j : Int) < 7 - weekend.length := by
        apply Classical.byContradiction
        intro hge
        have hall : ∀ y, s ≤ y → y < s + 7 - weekend.length → taken y := by
          intro y h1 h2
          rcases hs2 with ⟨rfl, rfl, -⟩ | ⟨rfl, rfl, -⟩
          · have := hj (y - e).toNat (by omega)
            rwa [show e + 1 * (((y - e).toNat : Nat) : Int) = y by omega] at this
          · have := hj (s + 6 - weekend.length - y).toNat (by omega)
            rwa [show s + 6 - (weekend.length : Int) + -1 * (((s + 6 - weekend.length - y).toNat : Nat) : Int) = y by omega] at this
        have hf : ∀ y, ∃ z, (s ≤ y ∧ y < s + 7 - weekend.length) → (z ∈ given ∧ ((y = z) ∨ (z, y) ∈ prev)) := by
          intro y
          by_cases hy : s ≤ y ∧ y < s + 7 - weekend.length
          · rcases (ht y).1 (hall y hy.1 hy.2) with h1 | h1
            · exact ⟨y, fun _ => ⟨h1, .inl rfl⟩⟩
            · obtain ⟨p, hpp, e⟩ := List.mem_map.1 h1
              refine ⟨p.1, fun _ => ⟨(hp p hpp).1, .inr ?_⟩⟩
              rw [← e]; exact hpp
          · exact ⟨0, fun h => absurd h hy⟩
        obtain ⟨f, hf⟩ := Classical.axiomOfChoice hf
        have hpos : ∀ y, s ≤ y → y < s + 7 - weekend.length → weekend.length ≤ (weekday y - w) % 7 ∧ y - (weekday y - w) % 7 = s - weekend.length := by
          intro y h1 h2
          unfold weekday at *; omega
        have hwin : ∀ y, s ≤ y → y < s + 7 - weekend.length → s - weekend.length ≤ f y ∧ f y < s - weekend.length + 7 + weekend.length := by
          intro y h1 h2
          rcases (hf y ⟨h1, h2⟩).2 with h3 | h3
          · omega
          · have := (hp _ h3).2
            unfold AdjacentDay at this
            simp only at this
            have := hpos y h1 h2
            omega
        have hprev : ∀ {y}, s ≤ y → y < s + 7 - weekend.length → (f y, y) ∈ prev → (weekday (f y) - w) % 7 < weekend.length := by
          intro y _ _ h3
          exact (hp _ h3).2.2.1
        rw [List.map_append, List.nodup_append] at hnd
        have hkeyinj : ∀ {a b c}, (a, b) ∈ prev → (a, c) ∈ prev → b = c := by
          intro a b c h1 h2
          have hn := hnd.1
          rw [List.Nodup, List.pairwise_map] at hn
          obtain ⟨i, hi, ei⟩ := List.mem_iff_getElem.1 h1
          obtain ⟨k, hk, ek⟩ := List.mem_iff_getElem.1 h2
          rw [List.pairwise_iff_getElem] at hn
          rcases Nat.lt_trichotomy i k with hik | rfl | hik
          · exact absurd (by rw [ei, ek]) (hn i k hi hk hik)
          · rw [ei] at ek; exact congrArg Prod.snd ek
          · exact absurd (by rw [ei, ek]) (hn k i hk hi hik)
        have hinj : ∀ y z, s ≤ y → y < s + 7 - weekend.length → s ≤ z → z < s + 7 - weekend.length → f y = f z → y = z := by
          intro y z h1 h2 h3 h4 he
          have hy := hpos y h1 h2
          have hz := hpos z h3 h4
          rcases (hf y ⟨h1, h2⟩).2 with h5 | h5 <;> rcases (hf z ⟨h3, h4⟩).2 with h6 | h6
          · rw [h5, h6, he]
          · have := hprev h3 h4 h6
            rw [← he, ← h5] at this; omega
          · have := hprev h1 h2 h5
            rw [he, ← h6] at this; omega
          · rw [he] at h5; exact hkeyinj h5 h6
        have hne : ∀ y, s ≤ y → y < s + 7 - weekend.length → f y ≠ h := by
          intro y h1 h2 he
          rcases (hf y ⟨h1, h2⟩).2 with h5 | h5
          · have := hpos y h1 h2
            rw [h5, he] at this; omega
          · exact hnd.2.2 h (by rw [← he]; exact List.mem_map_of_mem (f := Prod.fst) h5) h (by simp) rfl
        have hnl : (h :: (intRange s (s + 7 - weekend.length)).map f).Nodup := by
          rw [List.nodup_cons]
          constructor
          · intro hm
            obtain ⟨y, hy, e⟩ := List.mem_map.1 hm
            rw [mem_intRange] at hy
            exact hne y hy.1 hy.2 e
          · rw [List.Nodup, List.pairwise_map]
            refine List.Pairwise.imp_of_mem ?_ (pairwise_intRange _ _)
            intro a b ha hb hab he
            rw [mem_intRange] at ha hb
            have := hinj a b ha.1 ha.2 hb.1 hb.2 he
            omega
        have hlen := nodup_length_le hnl (ys := given.filter (fun a => decide (s - weekend.length ≤ a ∧ a < s - weekend.length + 7 + weekend.length)))
          (by
            intro x hx
            rw [List.mem_filter]
            rcases List.mem_cons.1 hx with rfl | hx
            · refine ⟨hg (x, _) List.mem_cons_self, ?_⟩
              simp only [decide_eq_true_eq]
              rcases hs2 with ⟨-, -, h1, h2⟩ | ⟨-, h0, h1, h2⟩ <;> omega
            · obtain ⟨y, hy, rfl⟩ := List.mem_map.1 hx
              rw [mem_intRange] at hy
              refine ⟨(hf y hy).1, ?_⟩
              simpa using hwin y hy.1 hy.2)
        have := hroom (s - weekend.length)
        simp only [List.length_cons, List.length_map, length_intRange] at hlen
        omega
      unfold AdjacentDay
      simp only
      rcases hs2 with ⟨rfl, rfl, h1, h2⟩ | ⟨rfl, h0, h1, h2⟩
      · refine ⟨?_, hs3, ?_⟩ <;> unfold weekday at * <;> omega
      · refine ⟨?_, hs3, ?_⟩ <;> unfold weekday at * <;> omega
    intro p hpm
    rcases List.mem_cons.1 hpm with rfl | hpm
    · exact hA
    · refine ih (prev ++ [(h, e + dir * j)]) ?_ ?_ ?_ ?_ p hpm
      · intro x
        show taken x ∨ x = e + dir * j ↔ _
        rw [ht]; simp [or_assoc]
      · intro q hq
        rcases List.mem_append.1 hq with hq | hq
        · exact hp q hq
        · rw [List.mem_singleton] at hq
          subst hq
          exact ⟨hg _ List.mem_cons_self, hA⟩
      · intro q hq; exact hg q (List.mem_cons_of_mem _ hq)
      · simpa using hnd

theorem Extension.weekday {how : String} {weekend : List Int} (hc : ConsecutiveDays weekend) (given : List Int)
    (hroom : ∀ x : Int, (given.filter (fun a => decide (x ≤ a ∧ a < x + 7 + weekend.length))).length ≤ 7 - weekend.length)
    {taken : Int → Prop} {added : List (Int × Int)} (hx : Extension how weekend taken added)
    (ht : ∀ x, taken x ↔ x ∈ given) (hg : ∀ p ∈ added, p.1 ∈ given) (hnd : (added.map Prod.fst).Nodup) : ∀ p ∈ added, TB.weekday p.2 ∉ weekend := by
  obtain ⟨h6, w, hw⟩ := hc
  intro p hpm
  have := hx.adjacent h6 hw given hroom [] (by simpa using ht) (by intro p hp; cases hp) hg hnd p hpm
  rw [ConsecutiveDays.mem h6 hw]
  have := this.1
  omega

end TB
