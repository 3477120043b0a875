import Verif.Lemmas.Intervals
import Verif.Spec.Roll
/-! Laws of rolling. -/
namespace TB
variable {L : Type}

/-! ### ranks in ascending lists -/

theorem ssLeft_getElem {P : List Int} (hP : P.Pairwise (· < ·)) {j : Nat} (hj : j < P.length) : ssLeft P P[j] = j := by
  have h := getElem_lt_iff (pairwise_le_of_lt hP) P[j]
  have h1 := h j hj
  have h0 := ssLeft_nonneg P P[j]
  have hle := ssLeft_le P P[j]
  by_cases hc : ssLeft P P[j] < j
  · have h2 := h (ssLeft P P[j]).toNat (by omega)
    have h3 := pairwise_lt_getElem hP (i := (ssLeft P P[j]).toNat) (j := j) (by omega) hj
    omega
  · omega

theorem ssLeft_of_getElem? {P : List Int} (hP : P.Pairwise (· < ·)) {j : Nat} {t : Int} :
    P[j]? = some t ↔ (t ∈ P ∧ ssLeft P t = j) := by
  constructor
  · intro h
    obtain ⟨hj, rfl⟩ := List.getElem?_eq_some_iff.1 h
    exact ⟨List.getElem_mem _, ssLeft_getElem hP hj⟩
  · rintro ⟨hm, hr⟩
    obtain ⟨i, hi, rfl⟩ := List.mem_iff_getElem.1 hm
    rw [ssLeft_getElem hP hi] at hr
    have : i = j := by omega
    subst this
    exact List.getElem?_eq_getElem hi

theorem ssLeft_filter {P : List Int} (hP : P.Pairwise (· < ·)) (v : Int) : ssLeft P v = ((P.filter (fun x => decide (x < v))).length : Int) := by
  induction P with
  | nil => rfl
  | cons x xs ih =>
    rw [ssLeft_cons, List.filter_cons]
    have hx := List.pairwise_cons.1 hP
    by_cases h : x < v
    · simp only [h, if_true, decide_true, List.length_cons]
      rw [ih hx.2]; omega
    · simp only [h, if_false, decide_false, Bool.false_eq_true]
      have : xs.filter (fun x => decide (x < v)) = [] := by
        rw [List.filter_eq_nil_iff]
        intro y hy
        have := hx.1 y hy
        simp; omega
      rw [this]; rfl

/-- The number of elements in a half-open range. -/
theorem ssLeft_sub {P : List Int} (hP : P.Pairwise (· < ·)) {a b : Int} (hab : a ≤ b) {Q : List Int} (hQ : Q.Pairwise (· < ·))
    (h : ∀ j, j ∈ Q ↔ (a ≤ j ∧ j < b ∧ j ∈ P)) : ssLeft P b - ssLeft P a = Q.length := by
  have e : Q = P.filter (fun x => decide (a ≤ x) && decide (x < b)) := by
    apply eq_of_pairwise_lt hQ (hP.filter _)
    intro x
    rw [h, List.mem_filter]
    simp
    constructor
    · rintro ⟨h1, h2, h3⟩; exact ⟨h3, h1, h2⟩
    · rintro ⟨h1, h2, h3⟩; exact ⟨h2, h3, h1⟩
  rw [e, ssLeft_filter hP, ssLeft_filter hP]
  clear e h hQ hP
  induction P with
  | nil => rfl
  | cons x xs ih =>
    rw [List.filter_cons, List.filter_cons, List.filter_cons]
    by_cases h1 : x < a <;> by_cases h2 : x < b <;> by_cases h3 : a ≤ x <;> simp [h1, h2, h3] <;> omega

theorem scanBack_eq {P : List Int} (hP : P.Pairwise (· < ·)) (v : Int) (k : Nat) (hk : k ≤ P.length)
    (hi : ∀ i (h : i < P.length), k ≤ i → v < P[i]) : scanBack P v k = ssRight P v - 1 := by
  induction k with
  | zero =>
    unfold scanBack
    rw [ssRight_unique (pairwise_le_of_lt hP) v 0 (by omega) (by intro i h h'; omega) (by intro i h h'; exact hi i h h')]
    rfl
  | succ k ih =>
    unfold scanBack
    rw [List.getElem?_eq_getElem (by omega)]
    simp only
    split
    · apply ih (by omega)
      intro i h h'
      rcases Nat.lt_or_eq_of_le h' with h'' | h''
      · exact hi i h (by omega)
      · subst h''; omega
    · rename_i hn
      rw [ssRight_unique (pairwise_le_of_lt hP) v (k + 1) hk ?_ hi]
      · omega
      · intro i h h'
        rcases Nat.lt_or_eq_of_le (Nat.le_of_lt_succ h') with h'' | h''
        · have := pairwise_lt_getElem hP h'' (by omega); omega
        · subst h''; omega

theorem ssRight_eq_ssLeft_succ (P : List Int) (v : Int) : ssRight P v = ssLeft P (v + 1) := by
  unfold ssRight ssLeft
  have : (fun x : Int => decide (x ≤ v)) = (fun x => decide (x < v + 1)) := by
    funext x; by_cases h : x ≤ v <;> simp [h] <;> omega
  rw [this]

theorem ssLeft_succ_of_mem {P : List Int} (hP : P.Pairwise (· < ·)) {v : Int} (h : v ∈ P) : ssLeft P (v + 1) = ssLeft P v + 1 := by
  have := ssLeft_sub hP (a := v) (b := v + 1) (by omega) (Q := [v]) (by simp) (by
    intro j; simp
    constructor
    · rintro rfl; exact ⟨by omega, by omega, h⟩
    · rintro ⟨h1, h2, _⟩; omega)
  simp at this; omega

/-! ### the duty index used by rolling -/

theorem Timeboard.Valid.mem_allPositions {tb : Timeboard L} (hv : tb.Valid) {s : Schedule L} {d : Duty} {k : Int} :
    k ∈ tb.allPositions s.selector d ↔ tb.DutyAt s d k := by
  unfold Timeboard.allPositions
  rw [hv.mem_dutyPositions_iff (by omega) (by omega)]
  constructor
  · intro h; exact h.2.2
  · intro h; exact ⟨h.1, by have := h.2.1; omega, h⟩

theorem Workshift.dutyIndex_eq {tb : Timeboard L} (hv : tb.Valid) {w : Workshift L} {l : L} (hl : tb.timeline.label w.loc = .ok l)
    {s : Schedule L} (ho : tb.Owns s) {d : Duty} (hd : d = .on ∨ d = .off ∨ d = .any) :
    w.dutyIndex tb d s = .ok (tb.allPositions s.selector d) := by
  unfold Workshift.dutyIndex
  simp only [Workshift.isOnDuty_eq hl, Workshift.isOffDuty_eq hl, bind, Except.bind]
  rcases hd with rfl | rfl | rfl
  · simp [← hv.onIdx_eq ho, pure, Except.pure]
  · simp [← hv.offIdx_eq ho, pure, Except.pure]
  · simp [← hv.index_eq, pure, Except.pure]

theorem Workshift.dutyIndex_same {tb : Timeboard L} {w : Workshift L} {l : L} (hl : tb.timeline.label w.loc = .ok l) (s : Schedule L) :
    w.dutyIndex tb .same s = w.dutyIndex tb (if s.selector l then .on else .off) s := by
  unfold Workshift.dutyIndex
  simp only [Workshift.isOnDuty_eq hl, Workshift.isOffDuty_eq hl, bind, Except.bind, Option.getD_some]
  cases s.selector l <;> simp

theorem Workshift.dutyIndex_alt {tb : Timeboard L} {w : Workshift L} {l : L} (hl : tb.timeline.label w.loc = .ok l) (s : Schedule L) :
    w.dutyIndex tb .alt s = w.dutyIndex tb (if s.selector l then .off else .on) s := by
  unfold Workshift.dutyIndex
  simp only [Workshift.isOnDuty_eq hl, Workshift.isOffDuty_eq hl, bind, Except.bind, Option.getD_some]
  cases s.selector l <;> simp

theorem Workshift.dutyIndex_other {tb : Timeboard L} {w : Workshift L} {l : L} (hl : tb.timeline.label w.loc = .ok l) (s : Schedule L) :
    w.dutyIndex tb .other s = .error .valueError := by
  unfold Workshift.dutyIndex
  simp only [Workshift.isOnDuty_eq hl, Workshift.isOffDuty_eq hl, bind, Except.bind, Option.getD_some]
  simp [throw, throwThe, MonadExceptOf.throw]

/-- The workshift number `j` in the list of positions. -/
def pick (tb : Timeboard L) (P : List Int) (j : Int) (s : Schedule L) : Except Err (Workshift L) :=
  if j < 0 ∨ j ≥ P.length then .error .outOfBounds else workshiftAt tb P j s

theorem Workshift.rollforward_eq {tb : Timeboard L} {w : Workshift L} {sch : Option (Schedule L)} {d : Duty} {P : List Int}
    (hP : w.dutyIndex tb d (sch.getD w.schedule) = .ok P) (n : Int) :
    w.rollforward tb n d sch = if ssLeft P w.loc = P.length then .error .outOfBounds else pick tb P (ssLeft P w.loc + n) (sch.getD w.schedule) := by
  unfold Workshift.rollforward pick
  simp only [hP, bind, Except.bind]
  by_cases h : ssLeft P w.loc = P.length
  · simp [h, throw, throwThe, MonadExceptOf.throw]
  · simp [h, throw, throwThe, MonadExceptOf.throw]

theorem Workshift.rollback_eq {tb : Timeboard L} {w : Workshift L} {sch : Option (Schedule L)} {d : Duty} {P : List Int}
    (hP : w.dutyIndex tb d (sch.getD w.schedule) = .ok P) (hs : P.Pairwise (· < ·)) (n : Int) :
    w.rollback tb n d sch = if ssLeft P (w.loc + 1) = 0 then .error .outOfBounds else pick tb P (ssLeft P (w.loc + 1) - 1 - n) (sch.getD w.schedule) := by
  unfold Workshift.rollback pick
  simp only [hP, bind, Except.bind]
  rw [scanBack_eq hs _ _ (Nat.le_refl _) (by intro i h h'; omega), ssRight_eq_ssLeft_succ]
  by_cases h : ssLeft P (w.loc + 1) = 0
  · simp [h, throw, throwThe, MonadExceptOf.throw]
  · have : ¬ (ssLeft P (w.loc + 1) - 1 = -1) := by omega
    simp [h, this, throw, throwThe, MonadExceptOf.throw]

theorem pick_ok_iff {tb : Timeboard L} {P : List Int} (hs : P.Pairwise (· < ·)) {j : Int} {s : Schedule L} {w : Workshift L} :
    pick tb P j s = .ok w ↔ ∃ t, t ∈ P ∧ ssLeft P t = j ∧ Workshift.new tb t (some s) = .ok w := by
  unfold pick
  constructor
  · intro h
    split at h
    · cases h
    · rename_i hn
      unfold workshiftAt at h
      rw [pyGet?_lt _ (by omega) (by omega)] at h
      exact ⟨_, List.getElem_mem _, by rw [ssLeft_getElem hs]; omega, h⟩
  · rintro ⟨t, ht, hj, hw⟩
    obtain ⟨i, hi, rfl⟩ := List.mem_iff_getElem.1 ht
    rw [ssLeft_getElem hs hi] at hj
    subst hj
    rw [if_neg (by omega)]
    unfold workshiftAt
    rw [pyGet?_lt _ (by omega) (by omega)]
    exact hw

theorem pick_error_iff {tb : Timeboard L} (hv : tb.Valid) {P : List Int} (hs : P.Pairwise (· < ·)) (hr : ∀ t ∈ P, 0 ≤ t ∧ t < tb.timeline.len)
    {j : Int} {s : Schedule L} {e : Err} :
    pick tb P j s = .error e ↔ (e = .outOfBounds ∧ ¬ ∃ t, t ∈ P ∧ ssLeft P t = j) := by
  constructor
  · intro h
    have hno : ¬ ∃ t, t ∈ P ∧ ssLeft P t = j := by
      rintro ⟨t, ht, hj⟩
      obtain ⟨w, hw, _⟩ := Workshift.exists_of_range hv (some s) (hr t ht).1 (hr t ht).2
      have := pick_ok_iff (tb := tb) (s := s) hs |>.2 ⟨t, ht, hj, hw⟩
      rw [h] at this; cases this
    refine ⟨?_, hno⟩
    unfold pick at h
    split at h
    · cases h; rfl
    · exfalso
      apply hno
      exact ⟨P[j.toNat]'(by omega), List.getElem_mem _, by rw [ssLeft_getElem hs]; omega⟩
  · rintro ⟨rfl, h⟩
    unfold pick
    rw [if_pos]
    apply Decidable.byContradiction
    intro hn
    apply h
    exact ⟨P[j.toNat]'(by omega), List.getElem_mem _, by rw [ssLeft_getElem hs]; omega⟩

/-! ### meaning of ranks -/

theorem Timeboard.Valid.zeroForward_iff {tb : Timeboard L} (hv : tb.Valid) {s : Schedule L} {d : Duty} {k k0 : Int} :
    tb.ZeroForward s d k k0 ↔ (k0 ∈ tb.allPositions s.selector d ∧ ssLeft (tb.allPositions s.selector d) k0 = ssLeft (tb.allPositions s.selector d) k ∧ k ≤ k0) := by
  have hs : (tb.allPositions s.selector d).Pairwise (· < ·) := tb.pairwise_dutyPositions _ _ _ _
  unfold Timeboard.ZeroForward
  rw [← hv.mem_allPositions]
  constructor
  · rintro ⟨h1, h2, h3⟩
    refine ⟨h2, ?_, h1⟩
    have := ssLeft_sub hs h1 (Q := []) (by simp) (by
      intro j; simp
      intro a b c
      exact h3 j a b (hv.mem_allPositions.1 c))
    simp at this; omega
  · rintro ⟨h1, h2, h3⟩
    refine ⟨h3, h1, ?_⟩
    intro j a b c
    have c := hv.mem_allPositions.2 c
    obtain ⟨i, hi, rfl⟩ := List.mem_iff_getElem.1 c
    have e1 := (getElem_lt_iff (pairwise_le_of_lt hs) k0 i hi).1 b
    have e2 := (getElem_lt_iff (pairwise_le_of_lt hs) k i hi)
    omega

theorem Timeboard.Valid.zeroBack_iff {tb : Timeboard L} (hv : tb.Valid) {s : Schedule L} {d : Duty} {k k0 : Int} :
    tb.ZeroBack s d k k0 ↔ (k0 ∈ tb.allPositions s.selector d ∧ ssLeft (tb.allPositions s.selector d) k0 = ssLeft (tb.allPositions s.selector d) (k + 1) - 1 ∧ k0 ≤ k) := by
  have hs : (tb.allPositions s.selector d).Pairwise (· < ·) := tb.pairwise_dutyPositions _ _ _ _
  unfold Timeboard.ZeroBack
  rw [← hv.mem_allPositions]
  constructor
  · rintro ⟨h1, h2, h3⟩
    refine ⟨h2, ?_, h1⟩
    have := ssLeft_sub hs (a := k0 + 1) (b := k + 1) (by omega) (Q := []) (by simp) (by
      intro j; simp
      intro a b c
      exact h3 j (by omega) (by omega) (hv.mem_allPositions.1 c))
    have e := ssLeft_succ_of_mem hs h2
    simp at this; omega
  · rintro ⟨h1, h2, h3⟩
    refine ⟨h3, h1, ?_⟩
    intro j a b c
    have c := hv.mem_allPositions.2 c
    obtain ⟨i, hi, rfl⟩ := List.mem_iff_getElem.1 c
    have e0 := ssLeft_succ_of_mem hs h1
    have e1 := (getElem_lt_iff (pairwise_le_of_lt hs) (k + 1) i hi)
    have e2 := (getElem_lt_iff (pairwise_le_of_lt hs) (k0 + 1) i hi)
    omega

theorem Timeboard.Valid.stepsTo_iff {tb : Timeboard L} (hv : tb.Valid) {s : Schedule L} {d : Duty} {k0 t n : Int} :
    tb.StepsTo s d k0 t n ↔ (t ∈ tb.allPositions s.selector d ∧ ssLeft (tb.allPositions s.selector d) t = ssLeft (tb.allPositions s.selector d) k0 + n) := by
  have hs : (tb.allPositions s.selector d).Pairwise (· < ·) := tb.pairwise_dutyPositions _ _ _ _
  unfold Timeboard.StepsTo
  rw [← hv.mem_allPositions]
  simp only [← hv.mem_allPositions]
  constructor
  · rintro ⟨h1, Q, hQ, ⟨h2, h3, h4⟩ | ⟨h2, h3, h4⟩⟩
    · have := ssLeft_sub hs h2 hQ h4
      refine ⟨h1, ?_⟩
      omega
    · have := ssLeft_sub hs h2 hQ h4
      refine ⟨h1, ?_⟩
      omega
  · rintro ⟨h1, h2⟩
    refine ⟨h1, ?_⟩
    by_cases hle : k0 ≤ t
    · refine ⟨(tb.allPositions s.selector d).filter (fun j => decide (k0 ≤ j) && decide (j < t)), hs.filter _, ?_⟩
      have hm : ∀ j, j ∈ (tb.allPositions s.selector d).filter (fun j => decide (k0 ≤ j) && decide (j < t)) ↔ (k0 ≤ j ∧ j < t ∧ j ∈ tb.allPositions s.selector d) := by
        intro j; rw [List.mem_filter]; simp
        constructor
        · rintro ⟨a, b, c⟩; exact ⟨b, c, a⟩
        · rintro ⟨a, b, c⟩; exact ⟨c, a, b⟩
      have := ssLeft_sub hs hle (hs.filter _) hm
      left; exact ⟨hle, by omega, hm⟩
    · refine ⟨(tb.allPositions s.selector d).filter (fun j => decide (t ≤ j) && decide (j < k0)), hs.filter _, ?_⟩
      have hm : ∀ j, j ∈ (tb.allPositions s.selector d).filter (fun j => decide (t ≤ j) && decide (j < k0)) ↔ (t ≤ j ∧ j < k0 ∧ j ∈ tb.allPositions s.selector d) := by
        intro j; rw [List.mem_filter]; simp
        constructor
        · rintro ⟨a, b, c⟩; exact ⟨b, c, a⟩
        · rintro ⟨a, b, c⟩; exact ⟨c, a, b⟩
      have := ssLeft_sub hs (a := t) (b := k0) (by omega) (hs.filter _) hm
      right; exact ⟨by omega, by omega, hm⟩

end TB
