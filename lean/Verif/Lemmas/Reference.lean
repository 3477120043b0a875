import Verif.Spec.Reference
import Verif.Lemmas.GetInterval
import Verif.Lemmas.Roll
/-! The list of workshifts and the timeboard. -/
namespace TB
variable {L : Type}

namespace Reference

theorem mem_those {xs : List (Shift L)} {p : Shift L → Bool} {k : Int} :
    k ∈ those xs p ↔ 0 ≤ k ∧ k < xs.length ∧ ∃ x, xs[k.toNat]? = some x ∧ p x = true := by
  unfold those
  rw [List.mem_filter, mem_intRange, Option.any_eq_true]
  constructor
  · rintro ⟨⟨h0, h1⟩, h2⟩; exact ⟨h0, h1, h2⟩
  · rintro ⟨h0, h1, h2⟩; exact ⟨⟨h0, h1⟩, h2⟩

theorem pairwise_those (xs : List (Shift L)) (p : Shift L → Bool) : (those xs p).Pairwise (· < ·) :=
  (pairwise_intRange _ _).filter _

end Reference

open Reference

section
variable {tb : Timeboard L} {xs : List (Shift L)}

theorem Timeboard.ListedAs.get (hx : tb.ListedAs xs) (hv : tb.Valid) {k : Int} (h0 : 0 ≤ k) (h1 : k < tb.timeline.len) :
    ∃ x, xs[k.toNat]? = some x ∧ tb.timeline.label k = .ok x.label ∧
      x.start = tb.timeline.frame.unitStart (tb.timeline.bnd k) ∧
      x.stop = tb.timeline.frame.unitStart (tb.timeline.bnd (k + 1)) - 1 ∧ x.ref = tb.timeline.refTime k ∧
      x.duration = tb.timeline.bnd (k + 1) - tb.timeline.bnd k := by
  obtain ⟨hl, hg⟩ := hx
  have hlt : k.toNat < xs.length := by omega
  have e := List.getElem?_eq_getElem hlt
  obtain ⟨w, c1, c2, c3, c4, c5, c6⟩ := hg _ _ e
  rw [Int.toNat_of_nonneg h0] at c1
  obtain ⟨w', d1, _, _, d4, d5, d6, d7, d8⟩ := Workshift.exists_of_range hv none h0 h1
  rw [d1] at c1
  cases c1
  rw [d5] at c2; rw [d6] at c3; rw [d7] at c4; rw [d8] at c5
  exact ⟨_, e, by rw [d4, c6], (Except.ok.inj c2).symm, (Except.ok.inj c3).symm, (Except.ok.inj c4).symm, (Except.ok.inj c5).symm⟩

/-- Every valid timeboard has a list. -/
theorem Timeboard.Valid.listedAs (hv : tb.Valid) : ∃ xs, tb.ListedAs xs := by
  have hex : ∀ n : Nat, (n : Int) ≤ tb.timeline.len → ∃ xs : List (Shift L), xs.length = n ∧
      ∀ (k : Nat) (x : Shift L), xs[k]? = some x → ∃ w, Workshift.new tb k = .ok w ∧ w.startTime tb = .ok x.start ∧
        w.endTime tb = .ok x.stop ∧ w.toTimestamp tb = .ok x.ref ∧ w.duration tb = .ok x.duration ∧ w.label = x.label := by
    intro n
    induction n with
    | zero => intro _; exact ⟨[], rfl, by simp⟩
    | succ n ih =>
      intro hn
      obtain ⟨xs, h1, h2⟩ := ih (by omega)
      obtain ⟨w, d1, _, _, d4, d5, d6, d7, d8⟩ := Workshift.exists_of_range hv none (k := n) (by omega) (by omega)
      refine ⟨xs ++ [Shift.mk (tb.timeline.frame.unitStart (tb.timeline.bnd n)) (tb.timeline.frame.unitStart (tb.timeline.bnd (n + 1)) - 1)
        (tb.timeline.refTime n) (tb.timeline.bnd (n + 1) - tb.timeline.bnd n) w.label], by simp [h1], ?_⟩
      intro k x hk
      rw [List.getElem?_append] at hk
      split at hk
      · exact h2 k x hk
      · rename_i hlt
        have : k = n := by
          have := (List.getElem?_eq_some_iff.1 hk).1
          simp at this; omega
        subst this
        simp [h1] at hk
        subst hk
        exact ⟨w, d1, d5, d6, d7, d8, rfl⟩
  have hpos := hv.wf.len_pos
  obtain ⟨xs, h1, h2⟩ := hex tb.timeline.len.toNat (by omega)
  exact ⟨xs, by omega, h2⟩

theorem Timeboard.ListedAs.mem_having (hx : tb.ListedAs xs) (hv : tb.Valid) {sel : L → Bool} {d : Duty} {k : Int} :
    k ∈ having xs sel d ↔ (0 ≤ k ∧ k < tb.timeline.len ∧ ∃ l, tb.timeline.label k = .ok l ∧ dutyMatches d sel l = true) := by
  unfold having
  rw [mem_those, ← hx.1]
  constructor
  · rintro ⟨h0, h1, x, h2, h3⟩
    obtain ⟨x', g1, g2, _⟩ := hx.get hv h0 h1
    rw [g1] at h2; cases h2
    exact ⟨h0, h1, _, g2, h3⟩
  · rintro ⟨h0, h1, l, h2, h3⟩
    obtain ⟨x', g1, g2, _⟩ := hx.get hv h0 h1
    rw [g2] at h2; cases h2
    exact ⟨h0, h1, _, g1, h3⟩

theorem Timeboard.ListedAs.having_eq (hx : tb.ListedAs xs) (hv : tb.Valid) (sel : L → Bool) (d : Duty) :
    having xs sel d = tb.allPositions sel d := by
  apply eq_of_pairwise_lt (pairwise_those _ _) (tb.pairwise_dutyPositions _ _ _ _)
  intro k
  refine (hx.mem_having hv).trans ?_
  rw [Timeboard.mem_dutyPositions]
  constructor
  · rintro ⟨h0, h1, h2⟩; exact ⟨h0, by omega, h2⟩
  · rintro ⟨h0, h1, h2⟩; exact ⟨h0, by omega, h2⟩

theorem Timeboard.ListedAs.among_eq (hx : tb.ListedAs xs) (hv : tb.Valid) (sel : L → Bool) (d : Duty) {i j : Int} (h0 : 0 ≤ i)
    (h1 : j < tb.timeline.len) : among xs sel d (intRange i (j + 1)) = tb.dutyPositions sel d i j := by
  unfold among
  apply eq_of_pairwise_lt ((pairwise_intRange _ _).filter _) (tb.pairwise_dutyPositions _ _ _ _)
  intro k
  rw [List.mem_filter, mem_intRange, decide_eq_true_eq, hx.mem_having hv, Timeboard.mem_dutyPositions]
  constructor
  · rintro ⟨⟨h2, h3⟩, _, _, h4⟩; exact ⟨h2, by omega, h4⟩
  · rintro ⟨h2, h3, h4⟩; exact ⟨⟨h2, by omega⟩, by omega, by omega, h4⟩

theorem Timeboard.ListedAs.those_at (hx : tb.ListedAs xs) (hv : tb.Valid) {t : Time} {k : Int} :
    k ∈ those xs (fun x => decide (x.start ≤ t ∧ t ≤ x.stop)) ↔ tb.At t k := by
  rw [mem_those, ← hx.1, hv.at_iff, hv.wf.wsPosition_ok_iff]
  constructor
  · rintro ⟨h0, h1, x, h2, h3⟩
    obtain ⟨x', g1, _, g2, g3, _⟩ := hx.get hv h0 h1
    rw [g1] at h2; cases h2
    rw [decide_eq_true_eq, g2, g3] at h3
    exact ⟨h0, h1, h3.1, by omega⟩
  · rintro ⟨h0, h1, h2, h3⟩
    obtain ⟨x', g1, _, g2, g3, _⟩ := hx.get hv h0 h1
    refine ⟨h0, h1, _, g1, ?_⟩
    rw [decide_eq_true_eq, g2, g3]
    omega

theorem Timeboard.Valid.at_unique (hv : tb.Valid) {t : Time} {j k : Int} (h1 : tb.At t j) (h2 : tb.At t k) : j = k := by
  rw [hv.at_iff] at h1 h2
  rw [h1] at h2
  cases h2; rfl

theorem Timeboard.ListedAs.head_at (hx : tb.ListedAs xs) (hv : tb.Valid) {t : Time} {k : Int} (h : tb.At t k) :
    (those xs (fun x => decide (x.start ≤ t ∧ t ≤ x.stop))).head? = some k := by
  have hk := (hx.those_at hv).2 h
  cases he : those xs (fun x => decide (x.start ≤ t ∧ t ≤ x.stop)) with
  | nil => rw [he] at hk; simp at hk
  | cons j js =>
    have hj : j ∈ those xs (fun x => decide (x.start ≤ t ∧ t ≤ x.stop)) := by rw [he]; simp
    rw [hv.at_unique h ((hx.those_at hv).1 hj)]
    rfl

theorem Timeboard.ListedAs.head_none (hx : tb.ListedAs xs) (hv : tb.Valid) {t : Time} (h : ¬ tb.Within t) :
    (those xs (fun x => decide (x.start ≤ t ∧ t ≤ x.stop))).head? = none := by
  cases he : those xs (fun x => decide (x.start ≤ t ∧ t ≤ x.stop)) with
  | nil => rfl
  | cons j js =>
    have hj : j ∈ those xs (fun x => decide (x.start ≤ t ∧ t ≤ x.stop)) := by rw [he]; simp
    exact absurd (hv.at_within ((hx.those_at hv).1 hj)) h

theorem Timeboard.Valid.startTime_eq (hv : tb.Valid) : tb.startTime = tb.timeline.frame.unitStart (tb.timeline.bnd 0) := by
  rw [hv.wf.bnd_zero]; rfl

theorem Timeboard.ListedAs.mem_any (hx : tb.ListedAs xs) (p : Shift L → Bool) :
    xs.any p = true ↔ ∃ k : Int, 0 ≤ k ∧ k < tb.timeline.len ∧ ∃ x, xs[k.toNat]? = some x ∧ p x = true := by
  rw [List.any_eq_true]
  constructor
  · rintro ⟨x, h1, h2⟩
    obtain ⟨i, hi⟩ := List.mem_iff_getElem?.1 h1
    have := (List.getElem?_eq_some_iff.1 hi).1
    exact ⟨i, by omega, by rw [hx.1]; omega, x, by simpa using hi, h2⟩
  · rintro ⟨k, _, _, x, h1, h2⟩
    exact ⟨x, List.mem_of_getElem? h1, h2⟩

theorem Timeboard.ListedAs.notBefore_iff (hx : tb.ListedAs xs) (hv : tb.Valid) (t : Time) :
    notBefore xs t = true ↔ tb.startTime ≤ t := by
  unfold notBefore
  have hlen := hv.wf.len_pos
  rw [hx.mem_any, hv.startTime_eq]
  constructor
  · rintro ⟨k, h0, h1, x, h2, h3⟩
    obtain ⟨x', g1, _, g2, _⟩ := hx.get hv h0 h1
    rw [g1] at h2; cases h2
    rw [decide_eq_true_eq, g2] at h3
    have := Frame.unitStart_le_iff (f := tb.timeline.frame).2 (hv.wf.bnd_le_bnd (j := 0) (k := k) (by omega) (by omega) (by omega))
    omega
  · intro h
    obtain ⟨x', g1, _, g2, _⟩ := hx.get hv (k := 0) (by omega) (by omega)
    exact ⟨0, by omega, by omega, x', g1, by rw [decide_eq_true_eq, g2]; exact h⟩

theorem Timeboard.ListedAs.notAfter_iff (hx : tb.ListedAs xs) (hv : tb.Valid) (t : Time) :
    notAfter xs t = true ↔ t ≤ tb.endTime := by
  unfold notAfter
  have hlen := hv.wf.len_pos
  have hend := hv.wf.unitStart_bnd_len
  have he : tb.endTime = tb.timeline.frame.endTime := rfl
  rw [hx.mem_any, he]
  constructor
  · rintro ⟨k, h0, h1, x, h2, h3⟩
    obtain ⟨x', g1, _, _, g3, _⟩ := hx.get hv h0 h1
    rw [g1] at h2; cases h2
    rw [decide_eq_true_eq, g3] at h3
    have := Frame.unitStart_le_iff (f := tb.timeline.frame).2 (hv.wf.bnd_le_bnd (j := k + 1) (k := tb.timeline.len) (by omega) (by omega) (by omega))
    omega
  · intro h
    obtain ⟨x', g1, _, _, g3, _⟩ := hx.get hv (k := tb.timeline.len - 1) (by omega) (by omega)
    have e : tb.timeline.len - 1 + 1 = tb.timeline.len := by omega
    rw [e] at g3
    exact ⟨tb.timeline.len - 1, by omega, by omega, x', g1, by rw [decide_eq_true_eq, g3]; omega⟩

theorem Timeboard.ListedAs.place_at (hx : tb.ListedAs xs) (hv : tb.Valid) {t : Time} {k : Int} (h : tb.At t k) :
    place xs t = .at k := by
  unfold place
  rw [hx.head_at hv h]

theorem Timeboard.ListedAs.place_before (hx : tb.ListedAs xs) (hv : tb.Valid) {t : Time} (h : t < tb.startTime) :
    place xs t = .before := by
  unfold place
  rw [hx.head_none hv (by unfold Timeboard.Within; omega)]
  have hn : notBefore xs t ≠ true := by rw [Ne, hx.notBefore_iff hv]; omega
  simp only
  rw [if_pos]
  rw [List.all_eq_true]
  intro x hxm
  rw [decide_eq_true_eq]
  unfold notBefore at hn
  rw [Ne, List.any_eq_true] at hn
  have : ¬ x.start ≤ t := fun hle => hn ⟨x, hxm, by simpa using hle⟩
  omega

theorem Timeboard.ListedAs.place_after (hx : tb.ListedAs xs) (hv : tb.Valid) {t : Time} (h : tb.endTime < t) :
    place xs t = .after := by
  unfold place
  have hse := hv.start_lt_end
  rw [hx.head_none hv (by unfold Timeboard.Within; omega)]
  have hn : notBefore xs t = true := by rw [hx.notBefore_iff hv]; omega
  simp only
  rw [if_neg]
  rw [List.all_eq_true]
  intro hall
  unfold notBefore at hn
  rw [List.any_eq_true] at hn
  obtain ⟨x, h1, h2⟩ := hn
  have := hall x h1
  rw [decide_eq_true_eq] at this h2
  omega

theorem Timeboard.ListedAs.mem_referenced (hx : tb.ListedAs xs) (hv : tb.Valid) {p : Period} {k : Int} :
    k ∈ referenced xs p ↔ tb.RefIn p k := by
  unfold referenced
  rw [mem_those, ← hx.1, hv.refIn_iff]
  constructor
  · rintro ⟨h0, h1, x, h2, h3⟩
    obtain ⟨x', g1, _, _, _, g4, _⟩ := hx.get hv h0 h1
    rw [g1] at h2; cases h2
    rw [decide_eq_true_eq, g4] at h3
    exact ⟨h0, h1, h3.1, h3.2⟩
  · rintro ⟨h0, h1, h2, h3⟩
    obtain ⟨x', g1, _, _, _, g4, _⟩ := hx.get hv h0 h1
    exact ⟨h0, h1, _, g1, by rw [decide_eq_true_eq, g4]; exact ⟨h2, h3⟩⟩

theorem Timeboard.ListedAs.referenced_eq (hx : tb.ListedAs xs) (hv : tb.Valid) {p : Period} {i j : Int}
    (h : ∀ k, tb.RefIn p k ↔ (i ≤ k ∧ k ≤ j)) : referenced xs p = intRange i (j + 1) := by
  apply eq_of_pairwise_lt (pairwise_those _ _) (pairwise_intRange _ _)
  intro k
  refine (hx.mem_referenced hv).trans ?_
  rw [h, mem_intRange]
  omega

theorem Timeboard.ListedAs.referenced_nil_iff (hx : tb.ListedAs xs) (hv : tb.Valid) {p : Period} :
    referenced xs p = [] ↔ ∀ k, ¬ tb.RefIn p k := by
  constructor
  · intro h k hk
    have := (hx.mem_referenced hv).2 hk
    rw [h] at this; simp at this
  · intro h
    cases he : referenced xs p with
    | nil => rfl
    | cons k ks => exact absurd ((hx.mem_referenced hv).1 (by rw [he]; simp)) (h k)

theorem Timeboard.ListedAs.inside_iff (hx : tb.ListedAs xs) (hv : tb.Valid) (p : Period) :
    (notBefore xs p.startTime && notAfter xs p.endTime) = true ↔ (tb.Within p.startTime ∧ tb.Within p.endTime) := by
  rw [Bool.and_eq_true, hx.notBefore_iff hv, hx.notAfter_iff hv]
  have := p.start_le_end
  unfold Timeboard.Within
  omega

end

end TB
