import Verif.Props.Additive
import Verif.Props.Monotone
/-! Property C101: intervals which have workshifts in common. -/
namespace TB
open TB.Ex
variable {L : Type}

/-- The interval `v` consists of the workshifts which are in `u` or in `t`. -/
def Interval.Unites (v u t : Interval L) (tb : Timeboard L) : Prop := ∀ k, v.Contains tb k ↔ (u.Contains tb k ∨ t.Contains tb k)

theorem intRange_split {a b c : Int} (h1 : a ≤ b) (h2 : b ≤ c) : intRange a c = intRange a b ++ intRange b c := by
  apply eq_of_pairwise_lt (pairwise_intRange _ _)
  · rw [List.pairwise_append]
    refine ⟨pairwise_intRange _ _, pairwise_intRange _ _, ?_⟩
    intro x hx y hy
    rw [mem_intRange] at hx hy
    omega
  · intro k
    rw [List.mem_append, mem_intRange, mem_intRange, mem_intRange]
    omega

theorem intRange_congr {a b c d : Int} (h : ∀ k, (a ≤ k ∧ k < b) ↔ (c ≤ k ∧ k < d)) : intRange a b = intRange c d := by
  apply eq_of_pairwise_lt (pairwise_intRange _ _) (pairwise_intRange _ _)
  intro k
  rw [mem_intRange, mem_intRange]
  exact h k

/-- The numbers of two ranges, of what they have together and of what they have in common. -/
theorem ranges_perm {a b c d p q x y : Int} (h : ∀ k, (p ≤ k ∧ k < q) ↔ ((a ≤ k ∧ k < b) ∨ (c ≤ k ∧ k < d)))
    (h' : ∀ k, (x ≤ k ∧ k < y) ↔ ((a ≤ k ∧ k < b) ∧ (c ≤ k ∧ k < d))) :
    (intRange p q ++ intRange x y).Perm (intRange a b ++ intRange c d) := by
  rw [List.perm_iff_count]
  intro k
  have hc : ∀ m n : Int, (intRange m n).count k = if m ≤ k ∧ k < n then 1 else 0 := by
    intro m n
    have hn : (intRange m n).Nodup := (pairwise_intRange m n).imp (fun h => Int.ne_of_lt h)
    by_cases hk : m ≤ k ∧ k < n
    · rw [if_pos hk]; rw [List.Nodup.count hn, if_pos ((mem_intRange _ _ _).2 hk)]
    · rw [if_neg hk]; exact List.count_eq_zero.2 (fun hm => hk ((mem_intRange _ _ _).1 hm))
  rw [List.count_append, List.count_append, hc, hc, hc, hc]
  have e1 := h k
  have e2 := h' k
  by_cases g1 : a ≤ k ∧ k < b <;> by_cases g2 : c ≤ k ∧ k < d
  · rw [if_pos (e1.2 (.inl g1)), if_pos (e2.2 ⟨g1, g2⟩), if_pos g1, if_pos g2]
  · rw [if_pos (e1.2 (.inl g1)), if_neg (fun hh => g2 (e2.1 hh).2), if_pos g1, if_neg g2]
  · rw [if_pos (e1.2 (.inr g2)), if_neg (fun hh => g1 (e2.1 hh).1), if_neg g1, if_pos g2]
  · rw [if_neg (fun hh => (e1.1 hh).elim g1 g2), if_neg (fun hh => g1 (e2.1 hh).1), if_neg g1, if_neg g2]

theorem sum_mapM_perm {F : Int → Except Err Rat} {a b : List Int} (h : a.Perm b) :
    ∀ x, (a.mapM F).map List.sum = .ok x → (b.mapM F).map List.sum = .ok x := by
  induction h with
  | nil => intro x hx; exact hx
  | cons k _ ih =>
    intro x hx
    rw [List.mapM_cons] at hx ⊢
    cases hk : F k with
    | error e => rw [hk] at hx; cases hx
    | ok r =>
      rw [hk] at hx
      rename_i l l' _
      cases hl : l.mapM F with
      | error e => rw [hl] at hx; cases hx
      | ok rs =>
        rw [hl] at hx
        have h1 := ih rs.sum (by rw [hl]; rfl)
        cases hl' : l'.mapM F with
        | error e => rw [hl'] at h1; cases h1
        | ok rs' =>
          rw [hl'] at h1
          have h2 : rs'.sum = rs.sum := Except.ok.inj h1
          have h3 : (r :: rs).sum = x := Except.ok.inj hx
          show Except.ok (r :: rs').sum = _
          rw [← h3, List.sum_cons, List.sum_cons, h2]
  | swap k m l =>
    intro x hx
    rw [List.mapM_cons, List.mapM_cons] at hx ⊢
    cases hk : F k with
    | error e => cases hm : F m with
      | error e' => rw [hm] at hx; cases hx
      | ok r' => rw [hm, hk] at hx; cases hx
    | ok r => cases hm : F m with
      | error e' => rw [hm] at hx; cases hx
      | ok r' =>
        rw [hk, hm] at hx
        cases hl : l.mapM F with
        | error e => rw [hl] at hx; cases hx
        | ok rs =>
          rw [hl] at hx
          have h3 : (r' :: r :: rs).sum = x := Except.ok.inj hx
          show Except.ok (r :: r' :: rs).sum = _
          rw [← h3]
          simp only [List.sum_cons]
          rw [← Rat.add_assoc, ← Rat.add_assoc, Rat.add_comm r r']
  | trans _ _ ih1 ih2 => intro x hx; exact ih2 x (ih1 x hx)

theorem mapM_rat_mem {F : Int → Except Err Rat} : ∀ {l : List Int} {rs : List Rat}, l.mapM F = .ok rs → ∀ k ∈ l, ∃ r, F k = .ok r
  | [], _, _, k, hk => by cases hk
  | m :: l, rs, h, k, hk => by
    rw [List.mapM_cons] at h
    cases hm : F m with
    | error e => rw [hm] at h; cases h
    | ok r =>
      rw [hm] at h
      cases hl : l.mapM F with
      | error e => rw [hl] at h; cases h
      | ok rs' =>
        rcases List.mem_cons.1 hk with rfl | hk
        · exact ⟨r, hm⟩
        · exact mapM_rat_mem hl k hk

theorem mapM_rat_of_mem {F : Int → Except Err Rat} : ∀ {l : List Int}, (∀ k ∈ l, ∃ r, F k = .ok r) → ∃ rs, l.mapM F = .ok rs
  | [], _ => ⟨[], rfl⟩
  | m :: l, h => by
    obtain ⟨r, hr⟩ := h m (by simp)
    obtain ⟨rs, hrs⟩ := mapM_rat_of_mem (l := l) (fun k hk => h k (by simp [hk]))
    exact ⟨r :: rs, by rw [List.mapM_cons, hr, hrs]; rfl⟩

theorem sum_mapM_subset {F : Int → Except Err Rat} {a b : List Int} (h : ∀ k ∈ a, k ∈ b) {x : Rat} (hb : (b.mapM F).map List.sum = .ok x) :
    ∃ y, (a.mapM F).map List.sum = .ok y := by
  cases hm : b.mapM F with
  | error e => rw [hm] at hb; cases hb
  | ok rs =>
    obtain ⟨ss, hs⟩ := mapM_rat_of_mem (fun k hk => mapM_rat_mem hm k (h k hk))
    exact ⟨ss.sum, by rw [hs]; rfl⟩

theorem sum_perm {a b : List Int} (h : a.Perm b) : a.sum = b.sum := by
  induction h with
  | nil => rfl
  | cons x _ ih => rw [List.sum_cons, List.sum_cons, ih]
  | swap x y l => simp only [List.sum_cons]; omega
  | trans _ _ ih1 ih2 => rw [ih1, ih2]

/-- **C101.** If the interval `v` consists of the workshifts which are in `u` or in `t`, then what `v` and the overlap of `u` and `t` have
together is what `u` and `t` have together: lengths, counts, total durations and worktimes. -/
theorem C101_together {tb : Timeboard L} (h : tb.Reachable) {v u t : Interval L} (hv : tb.HasInterval v) (hu : tb.HasInterval u)
    (ht : tb.HasInterval t) (hj : v.Unites u t tb) {s : Schedule L} (hs : tb.Owns s) {d : Duty}
    (hd : d = .on ∨ d = .off ∨ d = .any) (num : L → Option Rat) :
    ∃ o, u.overlap tb t = .ok o ∧
      v.len + o.len = u.len + t.len ∧
      (∃ a b x y, v.count tb d (some s) = .ok a ∧ o.count tb d (some s) = .ok b ∧
        u.count tb d (some s) = .ok x ∧ t.count tb d (some s) = .ok y ∧ a + b = x + y) ∧
      (∃ a b x y, v.totalDuration tb d (some s) = .ok a ∧ o.totalDuration tb d (some s) = .ok b ∧
        u.totalDuration tb d (some s) = .ok x ∧ t.totalDuration tb d (some s) = .ok y ∧ a + b = x + y) ∧
      (∀ x y, u.worktime tb num d (some s) = .ok x → t.worktime tb num d (some s) = .ok y →
        ∃ a b, v.worktime tb num d (some s) = .ok a ∧ o.worktime tb num d (some s) = .ok b ∧ a + b = x + y) ∧
      (∀ a, v.worktime tb num d (some s) = .ok a →
        ∃ b x y, o.worktime tb num d (some s) = .ok b ∧ u.worktime tb num d (some s) = .ok x ∧ t.worktime tb num d (some s) = .ok y) := by
  have hvd := h.valid
  have fv := hv.fine hvd
  have fu := hu.fine hvd
  have ft := ht.fine hvd
  have hso : tb.OwnsOpt (some s) := by intro x hx; cases hx; exact hs
  obtain ⟨o, ho, fo, _, hoc, _⟩ := fu.overlap_ok ft (s := none) (by intro x hx; cases hx)
  have hoi : tb.HasInterval o := .overlap hu ht (by intro x hx; cases hx) ho
  have hp := ranges_perm (a := u.lo) (b := u.hi + 1) (c := t.lo) (d := t.hi + 1) (p := v.lo) (q := v.hi + 1) (x := o.lo) (y := o.hi + 1)
    (by
      intro k
      have := hj k
      rw [fv.contains_iff hvd, fu.contains_iff hvd, ft.contains_iff hvd] at this
      omega)
    (by intro k; have := hoc k; omega)
  refine ⟨o, ho, ?_, ?_, ?_, ?_, ?_⟩
  · rw [fv.len_eq, fo.len_eq, fu.len_eq, ft.len_eq]
    have := hp.length_eq
    rw [List.length_append, List.length_append] at this
    omega
  · refine ⟨_, _, _, _, fv.count_eq hvd hso hd, fo.count_eq hvd hso hd, fu.count_eq hvd hso hd, ft.count_eq hvd hso hd, ?_⟩
    have := (hp.filter (fun k => match tb.timeline.label k with | .ok l => dutyMatches d s.selector l | .error _ => false)).length_eq
    rw [List.filter_append, List.filter_append, List.length_append, List.length_append] at this
    have this : (tb.dutyPositions s.selector d v.lo v.hi).length + (tb.dutyPositions s.selector d o.lo o.hi).length =
      (tb.dutyPositions s.selector d u.lo u.hi).length + (tb.dutyPositions s.selector d t.lo t.hi).length := this
    simp only [Option.getD_some]
    omega
  · refine ⟨_, _, _, _, fv.totalDuration_eq hvd hso hd, fo.totalDuration_eq hvd hso hd, fu.totalDuration_eq hvd hso hd,
      ft.totalDuration_eq hvd hso hd, ?_⟩
    have := sum_perm ((hp.filter (fun k => match tb.timeline.label k with | .ok l => dutyMatches d s.selector l | .error _ => false)).map (fun k => tb.timeline.bnd (k + 1) - tb.timeline.bnd k))
    rw [List.filter_append, List.filter_append, List.map_append, List.map_append, List.sum_append, List.sum_append] at this
    exact this
  · rw [worktime_by_positions h hv hso num hd, worktime_by_positions h hu hso num hd, worktime_by_positions h ht hso num hd,
      worktime_by_positions h hoi hso num hd]
    intro x y hx hy
    have h1 := sum_mapM_perm hp.symm _ ((sum_mapM_append _ _).1 x y hx hy)
    obtain ⟨a, b, ha, hb⟩ := (sum_mapM_append _ _).2 _ h1
    have h2 := (sum_mapM_append _ _).1 a b ha hb
    rw [h1] at h2
    exact ⟨a, b, ha, hb, (Except.ok.inj h2).symm⟩
  · rw [worktime_by_positions h hv hso num hd, worktime_by_positions h hu hso num hd, worktime_by_positions h ht hso num hd,
      worktime_by_positions h hoi hso num hd]
    intro a ha
    have hm : ∀ k, k ∈ intRange u.lo (u.hi + 1) ++ intRange t.lo (t.hi + 1) → k ∈ intRange v.lo (v.hi + 1) := by
      intro k hk
      have := hj k
      rw [fv.contains_iff hvd, fu.contains_iff hvd, ft.contains_iff hvd] at this
      rw [List.mem_append, mem_intRange, mem_intRange] at hk
      rw [mem_intRange]
      omega
    have hm' : ∀ k, k ∈ intRange o.lo (o.hi + 1) → k ∈ intRange v.lo (v.hi + 1) := by
      intro k hk
      apply hm
      rw [mem_intRange] at hk
      have := hoc k
      rw [List.mem_append, mem_intRange, mem_intRange]
      omega
    obtain ⟨b, hb⟩ := sum_mapM_subset hm' ha
    obtain ⟨x, hx⟩ := sum_mapM_subset (fun k hk => hm k (List.mem_append_left _ hk)) ha
    obtain ⟨y, hy⟩ := sum_mapM_subset (fun k hk => hm k (List.mem_append_right _ hk)) ha
    exact ⟨b, x, y, hb, hx, hy⟩

theorem length_filter_union {α : Type} (p q r o : α → Bool) (l : List α) (h : ∀ x ∈ l, p x = (q x || r x)) (h' : ∀ x ∈ l, o x = (q x && r x)) :
    (l.filter p).length + (l.filter o).length = (l.filter q).length + (l.filter r).length := by
  induction l with
  | nil => rfl
  | cons x xs ih =>
    have := ih (fun y hy => h y (by simp [hy])) (fun y hy => h' y (by simp [hy]))
    have a := h x (by simp)
    have b := h' x (by simp)
    simp only [List.filter_cons]
    rw [a, b]
    cases q x <;> cases r x <;> simp <;> omega

theorem portion_eq (n N : Nat) :
    (if n = 0 then (0 : Rat) else ((n : Int) : Rat) / ((N : Int) : Rat)) = ((n : Int) : Rat) * ((N : Int) : Rat)⁻¹ := by
  split
  · rename_i hk; subst hk; simp
  · rw [Rat.div_def]

/-- **C101**, portions: the portions of any interval `p` found in `v` and in the overlap add up to those found in `u` and in `t`. -/
theorem C101_portions {tb : Timeboard L} (h : tb.Reachable) {v u t p : Interval L} (hv : tb.HasInterval v) (hu : tb.HasInterval u)
    (ht : tb.HasInterval t) (hp : tb.HasInterval p) (hj : v.Unites u t tb) {s : Schedule L} (hs : tb.Owns s) {d : Duty}
    (hd : d = .on ∨ d = .off ∨ d = .any) :
    ∃ o a b x y, u.overlap tb t = .ok o ∧ v.whatPortionOf tb p d (some s) = .ok a ∧ o.whatPortionOf tb p d (some s) = .ok b ∧
      u.whatPortionOf tb p d (some s) = .ok x ∧ t.whatPortionOf tb p d (some s) = .ok y ∧ a + b = x + y := by
  have hvd := h.valid
  have hso : tb.OwnsOpt (some s) := by intro x hx; cases hx; exact hs
  obtain ⟨o, ho, _, hoc, _⟩ := C23_overlap_is_intersection h hu ht (s := none) (by intro x hx; cases hx)
  have hoi : tb.HasInterval o := .overlap hu ht (by intro x hx; cases hx) ho
  obtain ⟨wv, pv, qv, a1, a2, a3, a4, _⟩ := C25_what_portion_of h hv hp hso hd
  obtain ⟨wu, pu, qu, b1, b2, b3, b4, _⟩ := C25_what_portion_of h hu hp hso hd
  obtain ⟨wt, pt, qt, c1, c2, c3, c4, _⟩ := C25_what_portion_of h ht hp hso hd
  obtain ⟨wo, po, qo, d1, d2, d3, d4, _⟩ := C25_what_portion_of h hoi hp hso hd
  simp only [Option.getD_some] at a2 b2 c2 d2
  rw [a2] at b2 c2 d2
  cases b2
  cases c2
  cases d2
  refine ⟨o, qv, qo, qu, qt, ho, a3, d3, b3, c3, ?_⟩
  have loc : ∀ (x : Interval L) (w : List (Workshift L)) k, x.iter tb = .ok w →
      ((w.map (fun w => w.loc)).contains k = true ↔ x.Contains tb k) := by
    intro x w k hx
    unfold Interval.Contains
    rw [hx]
    simp
  have hsum := length_filter_union (fun w => (wv.map (fun w => w.loc)).contains w.loc) (fun w => (wu.map (fun w => w.loc)).contains w.loc)
    (fun w => (wt.map (fun w => w.loc)).contains w.loc) (fun w => (wo.map (fun w => w.loc)).contains w.loc) pv (by
      intro w _
      rw [Bool.eq_iff_iff, Bool.or_eq_true, loc v wv _ a1, loc u wu _ b1, loc t wt _ c1]
      exact hj _) (by
      intro w _
      rw [Bool.eq_iff_iff, Bool.and_eq_true, loc o wo _ d1, loc u wu _ b1, loc t wt _ c1]
      exact hoc _)
  rw [a4, b4, c4, d4]
  simp only [portion_eq]
  rw [← Rat.add_mul, ← Rat.add_mul, ← Rat.intCast_add, ← Rat.intCast_add]
  congr 2
  omega

theorem sum_rat_perm {a b : List Rat} (h : a.Perm b) : a.sum = b.sum := by
  induction h with
  | nil => rfl
  | cons x _ ih => rw [List.sum_cons, List.sum_cons, ih]
  | swap x y l => simp only [List.sum_cons]; rw [← Rat.add_assoc, ← Rat.add_assoc, Rat.add_comm x y]
  | trans _ _ ih1 ih2 => rw [ih1, ih2]

/-- **C101**, periods: as soon as the periods of `v` can be counted, those of the other three can be, and they add up too. -/
theorem C101_periods {tb : Timeboard L} (h : tb.Reachable) {v u t : Interval L} (hv : tb.HasInterval v) (hu : tb.HasInterval u)
    (ht : tb.HasInterval t) (hj : v.Unites u t tb) {s : Schedule L} (hs : tb.Owns s) {d : Duty}
    (hd : d = .on ∨ d = .off ∨ d = .any) {freq : Freq} {a : Rat} (ha : v.countPeriods tb freq d (some s) = .ok a) :
    ∃ o b x y, u.overlap tb t = .ok o ∧ o.countPeriods tb freq d (some s) = .ok b ∧ u.countPeriods tb freq d (some s) = .ok x ∧
      t.countPeriods tb freq d (some s) = .ok y ∧ a + b = x + y := by
  have hvd := h.valid
  have fv := hv.fine hvd
  have fu := hu.fine hvd
  have ft := ht.fine hvd
  have hso : tb.OwnsOpt (some s) := by intro x hx; cases hx; exact hs
  obtain ⟨o, ho, fo, _, hoc, _⟩ := fu.overlap_ok ft (s := none) (by intro x hx; cases hx)
  have hoi : tb.HasInterval o := .overlap hu ht (by intro x hx; cases hx) ho
  have hp := ranges_perm (a := u.lo) (b := u.hi + 1) (c := t.lo) (d := t.hi + 1) (p := v.lo) (q := v.hi + 1) (x := o.lo) (y := o.hi + 1)
    (by
      intro k
      have := hj k
      rw [fv.contains_iff hvd, fu.contains_iff hvd, ft.contains_iff hvd] at this
      omega)
    (by intro k; have := hoc k; omega)
  have pu : u.PartOf v tb := fun k hk => (hj k).2 (.inl hk)
  have pt : t.PartOf v tb := fun k hk => (hj k).2 (.inr hk)
  have po : o.PartOf v tb := by
    intro k hk
    apply pu
    rw [fo.contains_iff hvd] at hk
    rw [fu.contains_iff hvd]
    have := hoc k
    omega
  obtain ⟨b, hb, _⟩ := (C92_ratios h hoi hv po hso rfl hd).2 _ _ ha
  obtain ⟨x, hx, _⟩ := (C92_ratios h hu hv pu hso rfl hd).2 _ _ ha
  obtain ⟨y, hy, _⟩ := (C92_ratios h ht hv pt hso rfl hd).2 _ _ ha
  refine ⟨o, b, x, y, ho, hb, hx, hy, ?_⟩
  obtain ⟨ea, _⟩ := fv.countPeriods_val h hso hd ha
  obtain ⟨eb, _⟩ := fo.countPeriods_val h hso hd hb
  obtain ⟨ex, _⟩ := fu.countPeriods_val h hso hd hx
  obtain ⟨ey, _⟩ := ft.countPeriods_val h hso hd hy
  have := sum_rat_perm ((hp.filter (fun k => match tb.timeline.label k with | .ok l => dutyMatches d s.selector l | .error _ => false)).map
    (fun k => 1 / (tb.den s d freq (tb.per freq k) : Rat)))
  rw [List.filter_append, List.filter_append, List.map_append, List.map_append, List.sum_append, List.sum_append] at this
  rw [ea, eb, ex, ey]
  exact this

/-- 3-12 January consists of 3-9 and 7-12 January, which have 7-9 January in common. -/
example : ∃ v u t, Interval.new week (2, 11) = .ok v ∧ Interval.new week (2, 8) = .ok u ∧ Interval.new week (6, 11) = .ok t ∧
    week.HasInterval v ∧ week.HasInterval u ∧ week.HasInterval t ∧ v.Unites u t week := by
  obtain ⟨v, hv⟩ : ∃ u, Interval.new week (2, 11) = .ok u := ⟨_, Interval.new_ok_iff.2 ⟨by decide +kernel, by decide +kernel, by decide +kernel, rfl⟩⟩
  obtain ⟨u, hu⟩ : ∃ u, Interval.new week (2, 8) = .ok u := ⟨_, Interval.new_ok_iff.2 ⟨by decide +kernel, by decide +kernel, by decide +kernel, rfl⟩⟩
  obtain ⟨t, ht⟩ : ∃ u, Interval.new week (6, 11) = .ok u := ⟨_, Interval.new_ok_iff.2 ⟨by decide +kernel, by decide +kernel, by decide +kernel, rfl⟩⟩
  have n : week.OwnsOpt none := by intro x hx; cases hx
  have iv : week.HasInterval v := .new n hv
  have iu : week.HasInterval u := .new n hu
  have it : week.HasInterval t := .new n ht
  refine ⟨v, u, t, hv, hu, ht, iv, iu, it, ?_⟩
  intro k
  rw [(iv.fine week_reachable.valid).contains_iff week_reachable.valid, (iu.fine week_reachable.valid).contains_iff week_reachable.valid,
    (it.fine week_reachable.valid).contains_iff week_reachable.valid]
  obtain ⟨_, _, _, rfl⟩ := Interval.new_ok_iff.1 hv
  obtain ⟨_, _, _, rfl⟩ := Interval.new_ok_iff.1 hu
  obtain ⟨_, _, _, rfl⟩ := Interval.new_ok_iff.1 ht
  simp only; omega
example : exWork week (2, 8) .on = .ok 6 ∧ exWork week (6, 11) .on = .ok 5 ∧ exWork week (2, 11) .on = .ok 9 ∧ exWork week (6, 8) .on = .ok 2 := by
  decide +kernel
/-- The weeks of the same intervals, counted by working days. -/
example :
    ((Interval.new week (2, 11)).bind (fun v => v.countPeriods week fW .on)) = .ok ((9 : Rat) / 5) ∧
    ((Interval.new week (6, 8)).bind (fun v => v.countPeriods week fW .on)) = .ok ((2 : Rat) / 5) ∧
    ((Interval.new week (2, 8)).bind (fun v => v.countPeriods week fW .on)) = .ok ((6 : Rat) / 5) ∧
    ((Interval.new week (6, 11)).bind (fun v => v.countPeriods week fW .on)) = .ok 1 := by decide +kernel

end TB
