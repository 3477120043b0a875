import Verif.Props.Overlap
import Verif.Props.Worktime
/-! Property C68: adjacent intervals add up. -/
namespace TB
open TB.Ex
variable {L : Type}

/-- The interval `v` consists of the workshifts of `u` and of `t`, which have none in common. -/
def Interval.Joins (v u t : Interval L) (tb : Timeboard L) : Prop :=
  (∀ k, v.Contains tb k ↔ (u.Contains tb k ∨ t.Contains tb k)) ∧ ¬ ∃ k, u.Contains tb k ∧ t.Contains tb k

theorem Interval.Joins.symm {v u t : Interval L} {tb : Timeboard L} (h : v.Joins u t tb) : v.Joins t u tb :=
  ⟨fun k => (h.1 k).trans or_comm, fun ⟨k, a, b⟩ => h.2 ⟨k, b, a⟩⟩

theorem Interval.Joins.ranges {v u t : Interval L} {tb : Timeboard L} (hvd : tb.Valid) (fv : v.Fine tb) (fu : u.Fine tb) (ft : t.Fine tb)
    (h : v.Joins u t tb) :
    intRange v.lo (v.hi + 1) = intRange u.lo (u.hi + 1) ++ intRange t.lo (t.hi + 1) ∨
    intRange v.lo (v.hi + 1) = intRange t.lo (t.hi + 1) ++ intRange u.lo (u.hi + 1) := by
  have h1 : ∀ k, (v.lo ≤ k ∧ k ≤ v.hi) ↔ ((u.lo ≤ k ∧ k ≤ u.hi) ∨ (t.lo ≤ k ∧ k ≤ t.hi)) := by
    intro k
    rw [← fv.contains_iff hvd, ← fu.contains_iff hvd, ← ft.contains_iff hvd]; exact h.1 k
  have h2 : ∀ k, ¬ ((u.lo ≤ k ∧ k ≤ u.hi) ∧ (t.lo ≤ k ∧ k ≤ t.hi)) := by
    intro k hk
    apply h.2
    refine ⟨k, ?_⟩
    rw [fu.contains_iff hvd, ft.contains_iff hvd]; exact hk
  have key : ∀ {p q : Interval L}, (∀ k, (v.lo ≤ k ∧ k ≤ v.hi) ↔ ((p.lo ≤ k ∧ k ≤ p.hi) ∨ (q.lo ≤ k ∧ k ≤ q.hi))) →
      (∀ x y, (p.lo ≤ x ∧ x ≤ p.hi) → (q.lo ≤ y ∧ y ≤ q.hi) → x < y) →
      intRange v.lo (v.hi + 1) = intRange p.lo (p.hi + 1) ++ intRange q.lo (q.hi + 1) := by
    intro p q g1 g2
    apply eq_of_pairwise_lt (pairwise_intRange _ _)
    · rw [List.pairwise_append]
      refine ⟨pairwise_intRange _ _, pairwise_intRange _ _, ?_⟩
      intro x hx y hy
      rw [mem_intRange] at hx hy
      exact g2 x y (by omega) (by omega)
    · intro k
      rw [List.mem_append, mem_intRange, mem_intRange, mem_intRange]
      have := g1 k
      omega
  have ho : (∀ x y, (u.lo ≤ x ∧ x ≤ u.hi) → (t.lo ≤ y ∧ y ≤ t.hi) → x < y) ∨ (∀ x y, (t.lo ≤ x ∧ x ≤ t.hi) → (u.lo ≤ y ∧ y ≤ u.hi) → x < y) := by
    have a1 := h2 u.lo
    have a2 := h2 t.lo
    by_cases hc : u.hi < t.lo
    · left; intro x y hx hy; omega
    · right; intro x y hx hy; omega
  rcases ho with ho | ho
  · exact .inl (key h1 ho)
  · exact .inr (key (fun k => (h1 k).trans or_comm) ho)

theorem Interval.Joins.positions {v u t : Interval L} {tb : Timeboard L} (hvd : tb.Valid) (fv : v.Fine tb) (fu : u.Fine tb) (ft : t.Fine tb)
    (h : v.Joins u t tb) (sel : L → Bool) (d : Duty) :
    tb.dutyPositions sel d v.lo v.hi = tb.dutyPositions sel d u.lo u.hi ++ tb.dutyPositions sel d t.lo t.hi ∨
    tb.dutyPositions sel d v.lo v.hi = tb.dutyPositions sel d t.lo t.hi ++ tb.dutyPositions sel d u.lo u.hi := by
  unfold Timeboard.dutyPositions
  rcases h.ranges hvd fv fu ft with e | e
  · left; rw [e, List.filter_append]
  · right; rw [e, List.filter_append]

theorem mapM_loc {α : Type} (f : Workshift L → Except Err α) (F : Int → Except Err α) : ∀ ws : List (Workshift L), (∀ w ∈ ws, f w = F w.loc) →
    ws.mapM f = (ws.map (fun w => w.loc)).mapM F := by
  intro ws
  induction ws with
  | nil => intro _; rfl
  | cons w ws ih =>
    intro h
    rw [List.mapM_cons, List.map_cons, List.mapM_cons, h w (by simp), ih (fun w hw => h w (by simp [hw]))]

/-- The worktime of an interval by positions. -/
theorem worktime_by_positions {tb : Timeboard L} (h : tb.Reachable) {v : Interval L} (hv : tb.HasInterval v)
    {s : Option (Schedule L)} (hs : tb.OwnsOpt s) (num : L → Option Rat) {d : Duty} (hd : d = .on ∨ d = .off ∨ d = .any) :
    v.worktime tb num d s = ((intRange v.lo (v.hi + 1)).mapM (fun k =>
      (Workshift.new tb k (some (s.getD v.schedule))).bind (fun w => w.worktime tb num d (some (s.getD v.schedule))))).map List.sum := by
  have hvd := h.valid
  have fv := hv.fine hvd
  obtain ⟨ws, h1, h2, h3⟩ := fv.workshifts_spec hvd (sch := none) (by intro x hx; cases hx) (duty := .any) (.inr (.inr rfl))
  have h0 := fv.nonneg
  have hlt := fv.lt
  rw [hvd.dutyPositions_any _ (by omega) (by omega)] at h2
  have hiter : v.iter tb = .ok ws := h1
  rw [C27_worktime_is_sum h hv hs num d (fun _ => hd), hiter, ← h2]
  have hR : ∀ X : Except Err (List Rat), (do let xs ← X; return xs.sum : Except Err Rat) = X.map List.sum := by
    intro X; cases X <;> rfl
  show (do let xs ← ws.mapM (fun w : Workshift L => w.worktime tb num d (some (s.getD v.schedule))); return xs.sum) = _
  rw [hR, ← mapM_loc]
  intro w hw
  have hl := (h3 w hw).2
  have hr : 0 ≤ w.loc ∧ w.loc < tb.timeline.len := by
    have : w.loc ∈ ws.map (fun w => w.loc) := List.mem_map.2 ⟨w, hw, rfl⟩
    rw [h2, mem_intRange] at this; omega
  obtain ⟨w', hw', hloc', _, hl', _⟩ := Workshift.exists_of_range hvd (some (s.getD v.schedule)) hr.1 hr.2
  rw [hw']
  show _ = w'.worktime tb num d _
  rw [hl] at hl'
  simp only [Except.ok.injEq] at hl'
  rw [Workshift.worktime_eq hl num _ hd, Workshift.worktime_eq (w := w') (by rw [hloc', ← hl']; exact hl) num _ hd, ← hl']
  unfold Workshift.duration
  rw [hloc']

theorem sum_mapM_append {F : Int → Except Err Rat} (a b : List Int) :
    (∀ x y, (a.mapM F).map List.sum = .ok x → (b.mapM F).map List.sum = .ok y → ((a ++ b).mapM F).map List.sum = .ok (x + y)) ∧
    (∀ z, ((a ++ b).mapM F).map List.sum = .ok z → ∃ x y, (a.mapM F).map List.sum = .ok x ∧ (b.mapM F).map List.sum = .ok y) := by
  rw [List.mapM_append]
  cases ha : a.mapM F with
  | error e => 
    constructor
    · intro x y hx; cases hx
    · intro z hz; cases hz
  | ok xs =>
    cases hb : b.mapM F with
    | error e =>
      constructor
      · intro x y hx hy; cases hy
      · intro z hz; cases hz
    | ok ys =>
      constructor
      · intro x y hx hy
        simp only [Except.map, Except.ok.injEq] at hx hy
        subst hx hy
        show Except.ok ((xs ++ ys).sum) = _
        rw [List.sum_append]
      · intro z _; exact ⟨_, _, rfl, rfl⟩

/-- **C68.** If the interval `v` is made up of two intervals `u` and `t` with no workshift in common, then the length, the
counts, the total durations and the worktimes of `u` and `t` under a schedule add up to those of `v`, and the worktime of `v`
fails only if that of `u` or `t` does. -/
theorem C68_adjacent_add_up {tb : Timeboard L} (h : tb.Reachable) {v u t : Interval L} (hv : tb.HasInterval v) (hu : tb.HasInterval u)
    (ht : tb.HasInterval t) (hj : v.Joins u t tb) {s : Option (Schedule L)} (hs : tb.OwnsOpt s)
    (e1 : s.getD u.schedule = s.getD v.schedule) (e2 : s.getD t.schedule = s.getD v.schedule) {d : Duty}
    (hd : d = .on ∨ d = .off ∨ d = .any) (num : L → Option Rat) :
    v.len = u.len + t.len ∧
    (∃ x y, u.count tb d s = .ok x ∧ t.count tb d s = .ok y ∧ v.count tb d s = .ok (x + y)) ∧
    (∃ x y, u.totalDuration tb d s = .ok x ∧ t.totalDuration tb d s = .ok y ∧ v.totalDuration tb d s = .ok (x + y)) ∧
    (∀ x y, u.worktime tb num d s = .ok x → t.worktime tb num d s = .ok y → v.worktime tb num d s = .ok (x + y)) ∧
    (∀ z, v.worktime tb num d s = .ok z → ∃ x y, u.worktime tb num d s = .ok x ∧ t.worktime tb num d s = .ok y) := by
  have hvd := h.valid
  have fv := hv.fine hvd
  have fu := hu.fine hvd
  have ft := ht.fine hvd
  have hpos := hj.positions hvd fv fu ft (s.getD v.schedule).selector d
  refine ⟨?_, ?_, ?_, ?_⟩
  · rw [fv.len_eq, fu.len_eq, ft.len_eq]
    rcases hj.ranges hvd fv fu ft with e | e <;> rw [e, List.length_append] <;> omega
  · refine ⟨_, _, fu.count_eq hvd hs hd, ft.count_eq hvd hs hd, ?_⟩
    rw [fv.count_eq hvd hs hd, e1, e2]
    rcases hpos with e | e <;> rw [e, List.length_append] <;> congr 1 <;> omega
  · refine ⟨_, _, fu.totalDuration_eq hvd hs hd, ft.totalDuration_eq hvd hs hd, ?_⟩
    rw [fv.totalDuration_eq hvd hs hd, e1, e2]
    rcases hpos with e | e <;> rw [e, List.map_append, List.sum_append] <;> congr 1 <;> omega
  · rw [worktime_by_positions h hv hs num hd, worktime_by_positions h hu hs num hd, worktime_by_positions h ht hs num hd, e1, e2]
    rcases hj.ranges hvd fv fu ft with e | e
    · rw [e]; exact sum_mapM_append _ _
    · rw [e]
      obtain ⟨g1, g2⟩ := sum_mapM_append (F := fun k =>
        (Workshift.new tb k (some (s.getD v.schedule))).bind (fun w => w.worktime tb num d (some (s.getD v.schedule))))
        (intRange t.lo (t.hi + 1)) (intRange u.lo (u.hi + 1))
      constructor
      · intro x y hx hy; rw [Rat.add_comm]; exact g1 _ _ hy hx
      · intro z hz
        obtain ⟨x, y, a, b⟩ := g2 z hz
        exact ⟨y, x, b, a⟩

theorem length_filter_or {α : Type} (p q r : α → Bool) (l : List α) (h : ∀ x ∈ l, p x = (q x || r x)) (h' : ∀ x ∈ l, ¬ (q x = true ∧ r x = true)) :
    (l.filter p).length = (l.filter q).length + (l.filter r).length := by
  induction l with
  | nil => rfl
  | cons x xs ih =>
    have := ih (fun y hy => h y (by simp [hy])) (fun y hy => h' y (by simp [hy]))
    have a := h x (by simp)
    have b := h' x (by simp)
    simp only [List.filter_cons]
    rw [a]
    cases hq : q x <;> cases hr : r x
    · simpa using this
    · simp only [Bool.or_true, if_true, List.length_cons, Bool.false_eq_true, if_false]; omega
    · simp only [Bool.or_false, if_true, List.length_cons, Bool.false_eq_true, if_false]; omega
    · exact absurd ⟨hq, hr⟩ b

theorem portion_add (n m N : Nat) (h : n + m ≤ N) :
    (if n + m = 0 then (0 : Rat) else (((n + m : Nat) : Int) : Rat) / ((N : Int) : Rat)) =
    (if n = 0 then (0 : Rat) else ((n : Int) : Rat) / ((N : Int) : Rat)) + (if m = 0 then (0 : Rat) else ((m : Int) : Rat) / ((N : Int) : Rat)) := by
  have hz : ∀ k : Nat, (if k = 0 then (0 : Rat) else ((k : Int) : Rat) / ((N : Int) : Rat)) = ((k : Int) : Rat) * ((N : Int) : Rat)⁻¹ := by
    intro k
    split
    · rename_i hk; subst hk; simp
    · rw [Rat.div_def]
  rw [hz, hz, hz]
  rw [← Rat.add_mul]
  congr 1
  rw [← Rat.intCast_add]
  congr 1

/-- **C68**, portions: the portions of any interval `o` found in `u` and in `t` add up to the portion found in `v`. -/
theorem C68_portions_add_up {tb : Timeboard L} (h : tb.Reachable) {v u t o : Interval L} (hv : tb.HasInterval v) (hu : tb.HasInterval u)
    (ht : tb.HasInterval t) (ho : tb.HasInterval o) (hj : v.Joins u t tb) {s : Option (Schedule L)} (hs : tb.OwnsOpt s)
    (e1 : s.getD u.schedule = s.getD v.schedule) (e2 : s.getD t.schedule = s.getD v.schedule) {d : Duty}
    (hd : d = .on ∨ d = .off ∨ d = .any) :
    ∃ x y, u.whatPortionOf tb o d s = .ok x ∧ t.whatPortionOf tb o d s = .ok y ∧ v.whatPortionOf tb o d s = .ok (x + y) := by
  have hvd := h.valid
  have fv := hv.fine hvd
  have fu := hu.fine hvd
  have ft := ht.fine hvd
  obtain ⟨wv, ov, qv, a1, a2, a3, a4, _⟩ := C25_what_portion_of h hv ho hs hd
  obtain ⟨wu, ou, qu, b1, b2, b3, b4, _⟩ := C25_what_portion_of h hu ho hs hd
  obtain ⟨wt, ot, qt, c1, c2, c3, c4, _⟩ := C25_what_portion_of h ht ho hs hd
  rw [e1, a2] at b2
  rw [e2, a2] at c2
  cases b2
  cases c2
  refine ⟨qu, qt, b3, c3, ?_⟩
  rw [a3, a4, b4, c4]
  have loc : ∀ (x : Interval L) (w : List (Workshift L)) k, x.Fine tb → x.iter tb = .ok w →
      ((w.map (fun w => w.loc)).contains k = true ↔ x.Contains tb k) := by
    intro x w k _ hx
    unfold Interval.Contains
    rw [hx]
    simp
  have hsum := length_filter_or (fun w => (wv.map (fun w => w.loc)).contains w.loc) (fun w => (wu.map (fun w => w.loc)).contains w.loc)
    (fun w => (wt.map (fun w => w.loc)).contains w.loc) ov (by
      intro w _
      rw [Bool.eq_iff_iff, Bool.or_eq_true, loc v wv _ fv a1, loc u wu _ fu b1, loc t wt _ ft c1]
      exact hj.1 _) (by
      intro w _ hw
      rw [loc u wu _ fu b1, loc t wt _ ft c1] at hw
      exact hj.2 ⟨_, hw⟩)
  have hle : (ov.filter (fun w => (wv.map (fun w => w.loc)).contains w.loc)).length ≤ ov.length := List.length_filter_le _ _
  simp only [hsum] at hle ⊢
  rw [← portion_add _ _ _ hle]

/-- 3-12 January as 3-9 and 10-12 January. -/
example : ∃ v u t, Interval.new week (2, 11) = .ok v ∧ Interval.new week (2, 8) = .ok u ∧ Interval.new week (9, 11) = .ok t ∧
    week.HasInterval v ∧ week.HasInterval u ∧ week.HasInterval t ∧ v.Joins u t week := by
  obtain ⟨v, hv⟩ : ∃ u, Interval.new week (2, 11) = .ok u := ⟨_, Interval.new_ok_iff.2 ⟨by decide +kernel, by decide +kernel, by decide +kernel, rfl⟩⟩
  obtain ⟨u, hu⟩ : ∃ u, Interval.new week (2, 8) = .ok u := ⟨_, Interval.new_ok_iff.2 ⟨by decide +kernel, by decide +kernel, by decide +kernel, rfl⟩⟩
  obtain ⟨t, ht⟩ : ∃ u, Interval.new week (9, 11) = .ok u := ⟨_, Interval.new_ok_iff.2 ⟨by decide +kernel, by decide +kernel, by decide +kernel, rfl⟩⟩
  have n : week.OwnsOpt none := by intro x hx; cases hx
  have iv : week.HasInterval v := .new n hv
  have iu : week.HasInterval u := .new n hu
  have it : week.HasInterval t := .new n ht
  refine ⟨v, u, t, hv, hu, ht, iv, iu, it, ?_, ?_⟩
  · intro k
    rw [(iv.fine week_reachable.valid).contains_iff week_reachable.valid, (iu.fine week_reachable.valid).contains_iff week_reachable.valid,
      (it.fine week_reachable.valid).contains_iff week_reachable.valid]
    obtain ⟨_, _, _, rfl⟩ := Interval.new_ok_iff.1 hv
    obtain ⟨_, _, _, rfl⟩ := Interval.new_ok_iff.1 hu
    obtain ⟨_, _, _, rfl⟩ := Interval.new_ok_iff.1 ht
    simp only; omega
  · rintro ⟨k, a, b⟩
    rw [(iu.fine week_reachable.valid).contains_iff week_reachable.valid] at a
    rw [(it.fine week_reachable.valid).contains_iff week_reachable.valid] at b
    obtain ⟨_, _, _, rfl⟩ := Interval.new_ok_iff.1 hu
    obtain ⟨_, _, _, rfl⟩ := Interval.new_ok_iff.1 ht
    simp only at a b; omega
example : exWork week (2, 8) .on = .ok 6 ∧ exWork week (9, 11) .on = .ok 3 ∧ exWork week (2, 11) .on = .ok 9 ∧
    exPortion (2, 8) (7, 20) .on = .ok (2/11 : Rat) ∧ exPortion (9, 11) (7, 20) .on = .ok (3/11 : Rat) ∧
    exPortion (2, 11) (7, 20) .on = .ok (5/11 : Rat) := by decide +kernel

end TB
