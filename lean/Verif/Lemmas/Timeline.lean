import Verif.Model.Timeline
import Verif.Lemmas.Layout
/-! Laws of timelines. -/
namespace TB
set_option linter.unusedSectionVars false
variable {L : Type}

/-! ### Well-formed timelines -/

/-- What the constructor of `_Timeline` guarantees. -/
structure Timeline.WF (tl : Timeline L) : Prop where
  npos : 0 < tl.frame.n
  sorted : tl.wsIdx.Pairwise (· < ·)
  range : ∀ x ∈ tl.wsIdx, 0 ≤ x ∧ x < tl.frame.n
  zero_mem : 0 ∈ tl.wsIdx
  fb_len : tl.frameband.length = tl.frame.n
  fb : ∀ i (h : i < tl.frameband.length), tl.frameband[i] ∈ tl.wsIdx ∧ tl.frameband[i] ≤ i ∧
    ∀ x ∈ tl.wsIdx, x ≤ i → x ≤ tl.frameband[i]
  labels_len : tl.labels.length = tl.wsIdx.length

theorem length_maskedCounter (mask : Int → Bool) (k : Nat) : ∀ (i n : Int), (maskedCounter mask k i n).length = k := by
  induction k with
  | zero => intro i n; rfl
  | succ k ih => intro i n; unfold maskedCounter; split <;> simp [ih]

theorem maskedCounter_spec (mask : Int → Bool) (k : Nat) : ∀ (i n : Int) (j : Nat) (h : j < (maskedCounter mask k i n).length),
    ((maskedCounter mask k i n)[j] = n ∧ (∀ x, i ≤ x → x ≤ i + j → mask x = false)) ∨
    (mask (maskedCounter mask k i n)[j] = true ∧ i ≤ (maskedCounter mask k i n)[j] ∧ (maskedCounter mask k i n)[j] ≤ i + j ∧
      ∀ x, (maskedCounter mask k i n)[j] < x → x ≤ i + j → mask x = false) := by
  induction k with
  | zero => intro i n j h; simp [maskedCounter] at h
  | succ k ih =>
    intro i n j h
    cases hm : mask i with
    | true =>
      have e : maskedCounter mask (k + 1) i n = i :: maskedCounter mask k (i + 1) i := by
        rw [maskedCounter, if_pos hm]
      simp only [e] at h ⊢
      right
      cases j with
      | zero =>
        simp only [List.getElem_cons_zero]
        exact ⟨hm, by omega, by omega, fun x h1 h2 => by omega⟩
      | succ j =>
        simp only [List.getElem_cons_succ]
        rcases ih (i + 1) i j (by simpa using h) with ⟨h1, h2⟩ | ⟨h1, h2, h3, h4⟩
        · rw [h1]
          exact ⟨hm, by omega, by omega, fun x h3 h4 => h2 x (by omega) (by omega)⟩
        · exact ⟨h1, by omega, by omega, fun x h5 h6 => h4 x h5 (by omega)⟩
    | false =>
      have e : maskedCounter mask (k + 1) i n = n :: maskedCounter mask k (i + 1) n := by
        rw [maskedCounter, if_neg (by simp [hm])]
      simp only [e] at h ⊢
      cases j with
      | zero =>
        left
        simp only [List.getElem_cons_zero]
        refine ⟨trivial, fun x h1 h2 => ?_⟩
        have : x = i := by omega
        rw [this]; exact hm
      | succ j =>
        simp only [List.getElem_cons_succ]
        rcases ih (i + 1) n j (by simpa using h) with ⟨h1, h2⟩ | ⟨h1, h2, h3, h4⟩
        · left
          refine ⟨h1, fun x h3 h4 => ?_⟩
          rcases Int.lt_or_eq_of_le h3 with h5 | h5
          · exact h2 x (by omega) (by omega)
          · rw [← h5]; exact hm
        · right
          exact ⟨h1, by omega, by omega, fun x h5 h6 => h4 x h5 (by omega)⟩

theorem mem_nonzeroMask (mask : Int → Bool) (n : Nat) (x : Int) :
    x ∈ nonzeroMask mask n ↔ (0 ≤ x ∧ x < n ∧ mask x = true) := by
  simp only [nonzeroMask, List.mem_filter, List.mem_map, List.mem_range]
  constructor
  · rintro ⟨⟨k, hk, rfl⟩, h⟩; exact ⟨by omega, by omega, h⟩
  · rintro ⟨h1, h2, h3⟩; exact ⟨⟨x.toNat, by omega, by omega⟩, h3⟩

theorem pairwise_nonzeroMask (mask : Int → Bool) (n : Nat) : (nonzeroMask mask n).Pairwise (· < ·) := by
  unfold nonzeroMask
  apply List.Pairwise.filter
  apply pairwise_map_range
  intro i j h _; omega

theorem Timeline.wf_of_mask {tl : Timeline L} (hn : 0 < tl.frame.n) (mask : Int → Bool) (h0 : mask 0 = true)
    (h1 : tl.wsIdx = nonzeroMask mask tl.frame.n) (h2 : tl.frameband = maskedCounter mask tl.frame.n 0 0)
    (h3 : tl.labels.length = tl.wsIdx.length) : tl.WF where
  npos := hn
  sorted := by rw [h1]; exact pairwise_nonzeroMask _ _
  range := by intro x hx; rw [h1, mem_nonzeroMask] at hx; exact ⟨hx.1, hx.2.1⟩
  zero_mem := by rw [h1, mem_nonzeroMask]; exact ⟨by omega, by omega, h0⟩
  fb_len := by rw [h2, length_maskedCounter]
  fb := by
    intro i h
    have hs := maskedCounter_spec mask tl.frame.n 0 0 i (by rw [← h2]; exact h)
    have hi : i < tl.frame.n := by rw [h2, length_maskedCounter] at h; exact h
    simp only [h1, h2, mem_nonzeroMask]
    rcases hs with ⟨_, hb⟩ | ⟨ha, hb, hc, hd⟩
    · have := hb 0 (by omega) (by omega); rw [h0] at this; cases this
    · refine ⟨⟨hb, by omega, ha⟩, by omega, ?_⟩
      rintro x ⟨hx1, hx2, hx3⟩ hx4
      rcases Int.lt_or_le ((maskedCounter mask tl.frame.n 0 0)[i]'(by rw [length_maskedCounter]; exact hi)) x with hx | hx
      · have := hd x hx (by omega); rw [hx3] at this; cases this
      · exact hx
  labels_len := h3

theorem maskedCounter_true (n : Nat) : ∀ i v : Int,
    maskedCounter (fun _ => true) n i v = (List.range n).map (fun (j : Nat) => i + (j : Int)) := by
  induction n with
  | zero => intro i v; simp [maskedCounter]
  | succ n ih =>
    intro i v
    simp only [maskedCounter, if_true, ih, List.range_succ_eq_map, List.map_cons, List.map_map]
    congr 1
    · simp
    · apply List.map_congr_left
      intro a _
      simp only [Function.comp]; omega

theorem nonzeroMask_true (n : Nat) : nonzeroMask (fun _ => true) n = (List.range n).map (fun (i : Nat) => (i : Int)) := by
  unfold nonzeroMask
  rw [List.filter_eq_self]; simp

/-- The constructor makes well-formed timelines. -/
theorem Timeline.new_wf {frame : Frame} {org : Option (Layout L)} {refEnd : Bool} {data : L} {heap heap' : Heap L}
    {tl : Timeline L} (hn : 0 < frame.n) (h : Timeline.new frame org refEnd data heap = .ok (tl, heap')) :
    tl.WF ∧ tl.frame = frame ∧ tl.refEnd = refEnd := by
  unfold Timeline.new at h
  cases org with
  | none =>
    simp only [Except.ok.injEq, Prod.mk.injEq] at h
    obtain ⟨rfl, rfl⟩ := h
    refine ⟨Timeline.wf_of_mask hn (fun _ => true) rfl (nonzeroMask_true _).symm ?_ (by simp), rfl, rfl⟩
    rw [maskedCounter_true]; simp
  | some o =>
    simp only at h
    split at h
    · simp at h
    · rename_i st he
      simp only [Except.ok.injEq, Prod.mk.injEq] at h
      obtain ⟨rfl, rfl⟩ := h
      have hl := Layout.run_local frame o _ _ st (by simp only; omega) he
      exact ⟨Timeline.wf_of_mask hn st.mask hl.2 rfl rfl (by simp), rfl, rfl⟩

/-! ### The bounds of workshifts -/

/-- The first base unit of the `k`-th workshift; the number of base units for `k` past the end. -/
def Timeline.bnd (tl : Timeline L) (k : Int) : Int := (tl.wsIdx[k.toNat]?).getD tl.frame.n

theorem Timeline.bnd_lt {tl : Timeline L} {k : Int} (h0 : 0 ≤ k) (h1 : k < tl.len) :
    ∃ h : k.toNat < tl.wsIdx.length, tl.bnd k = tl.wsIdx[k.toNat] := by
  unfold Timeline.len at h1
  refine ⟨by omega, ?_⟩
  unfold Timeline.bnd
  rw [List.getElem?_eq_getElem (by omega)]; rfl

theorem Timeline.bnd_ge {tl : Timeline L} {k : Int} (h1 : tl.len ≤ k) : tl.bnd k = tl.frame.n := by
  unfold Timeline.len at h1
  unfold Timeline.bnd
  rw [List.getElem?_eq_none (by omega)]; rfl

theorem Timeline.len_nonneg (tl : Timeline L) : 0 ≤ tl.len := by unfold Timeline.len; omega

namespace Timeline.WF
variable {tl : Timeline L} (wf : tl.WF)
include wf

theorem len_pos : 0 < tl.len := by
  unfold Timeline.len
  have := List.length_pos_of_mem wf.zero_mem; omega

theorem bnd_range {k : Int} (h0 : 0 ≤ k) (h1 : k < tl.len) : 0 ≤ tl.bnd k ∧ tl.bnd k < tl.frame.n := by
  obtain ⟨h, he⟩ := Timeline.bnd_lt h0 h1
  rw [he]; exact wf.range _ (List.getElem_mem h)

theorem bnd_lt_bnd {j k : Int} (h0 : 0 ≤ j) (h1 : j < k) (h2 : k ≤ tl.len) : tl.bnd j < tl.bnd k := by
  rcases Int.lt_or_eq_of_le h2 with h2 | h2
  · obtain ⟨hj, ej⟩ := tl.bnd_lt h0 (by omega : j < tl.len)
    obtain ⟨hk, ek⟩ := tl.bnd_lt (by omega) h2
    rw [ej, ek]; exact pairwise_lt_getElem wf.sorted (by omega) hk
  · rw [tl.bnd_ge (k := k) (by omega)]
    exact (wf.bnd_range h0 (by omega)).2

theorem bnd_le_bnd {j k : Int} (h0 : 0 ≤ j) (h1 : j ≤ k) (h2 : k ≤ tl.len) : tl.bnd j ≤ tl.bnd k := by
  rcases Int.lt_or_eq_of_le h1 with h | h
  · exact Int.le_of_lt (wf.bnd_lt_bnd h0 h h2)
  · rw [h]; exact Int.le_refl _

theorem bnd_lt_iff {j k : Int} (h0 : 0 ≤ j) (h1 : j ≤ tl.len) (h2 : 0 ≤ k) (h3 : k ≤ tl.len) :
    tl.bnd j < tl.bnd k ↔ j < k := by
  constructor
  · intro h
    rcases Int.lt_or_le j k with h' | h'
    · exact h'
    · have := wf.bnd_le_bnd h2 h' h1; omega
  · intro h; exact wf.bnd_lt_bnd h0 h h3

theorem bnd_zero : tl.bnd 0 = 0 := by
  obtain ⟨i, hi, he⟩ := List.getElem_of_mem wf.zero_mem
  obtain ⟨h, e⟩ := tl.bnd_lt (Int.le_refl 0) wf.len_pos
  rw [e]
  have h1 := wf.range _ (List.getElem_mem h)
  cases i with
  | zero => simpa using he
  | succ i =>
    have := pairwise_lt_getElem wf.sorted (i := 0) (j := i + 1) (by omega) hi
    simp at h1 this ⊢
    omega

/-- Every base unit lies in exactly one workshift. -/
theorem exists_ws {i : Int} (h0 : 0 ≤ i) (h1 : i < tl.frame.n) :
    ∃ k : Int, 0 ≤ k ∧ k < tl.len ∧ tl.bnd k ≤ i ∧ i < tl.bnd (k + 1) := by
  have hh : i.toNat < tl.frameband.length := by rw [wf.fb_len]; omega
  obtain ⟨f1, f2, f3⟩ := wf.fb i.toNat hh
  obtain ⟨k, hk, ek⟩ := List.getElem_of_mem f1
  refine ⟨k, by omega, by unfold Timeline.len; omega, ?_, ?_⟩
  · obtain ⟨hh', e⟩ := tl.bnd_lt (k := k) (by omega) (by unfold Timeline.len; omega)
    rw [e]; simp at ek ⊢; omega
  · rcases Int.lt_or_le ((k : Int) + 1) tl.len with hl | hl
    · obtain ⟨hh', e⟩ := tl.bnd_lt (k := (k : Int) + 1) (by omega) hl
      rcases Int.lt_or_le i (tl.bnd ((k : Int) + 1)) with hx | hx
      · exact hx
      · have h3 := f3 _ (List.getElem_mem hh') (by rw [← e]; omega)
        rw [← ek] at h3
        have h4 := pairwise_lt_getElem wf.sorted (i := k) (j := ((k : Int) + 1).toNat) (by omega) hh'
        omega
    · rw [tl.bnd_ge hl]; exact h1

theorem ws_unique {j k i : Int} (h0 : 0 ≤ j) (h1 : j < tl.len) (h2 : 0 ≤ k) (h3 : k < tl.len)
    (h4 : tl.bnd j ≤ i) (h5 : i < tl.bnd (j + 1)) (h6 : tl.bnd k ≤ i) (h7 : i < tl.bnd (k + 1)) : j = k := by
  have h8 := (wf.bnd_lt_iff h0 (by omega) (by omega) (by omega : k + 1 ≤ tl.len)).1 (by omega)
  have h9 := (wf.bnd_lt_iff h2 (by omega) (by omega) (by omega : j + 1 ≤ tl.len)).1 (by omega)
  omega

/-- The values of `frameband`. -/
theorem frameband_eq {k i : Int} (h0 : 0 ≤ k) (h1 : k < tl.len) (h2 : tl.bnd k ≤ i) (h3 : i < tl.bnd (k + 1)) :
    ∃ h : i.toNat < tl.frameband.length, tl.frameband[i.toNat] = tl.bnd k := by
  have hb := (wf.bnd_range h0 h1).1
  have hn : tl.bnd (k + 1) ≤ tl.frame.n := by
    have := wf.bnd_le_bnd (j := k + 1) (k := tl.len) (by omega) (by omega) (by omega)
    rw [tl.bnd_ge (k := tl.len) (by omega)] at this; exact this
  have hh : i.toNat < tl.frameband.length := by rw [wf.fb_len]; omega
  refine ⟨hh, ?_⟩
  obtain ⟨f1, f2, f3⟩ := wf.fb i.toNat hh
  obtain ⟨hk, ek⟩ := tl.bnd_lt h0 h1
  have hle : tl.bnd k ≤ tl.frameband[i.toNat] := by
    rw [ek]; exact f3 _ (List.getElem_mem hk) (by rw [← ek]; omega)
  obtain ⟨j, hj, ej⟩ := List.getElem_of_mem f1
  have ej' : tl.bnd j = tl.frameband[i.toNat] := by
    obtain ⟨hh', e⟩ := tl.bnd_lt (k := j) (by omega) (by unfold Timeline.len; omega)
    rw [e]; simpa using ej
  have hj' : (j : Int) < tl.len := by unfold Timeline.len; omega
  have h8 := (wf.bnd_lt_iff (j := j) (k := k + 1) (by omega) (by omega) (by omega) (by omega)).1 (by omega)
  have h9 := wf.bnd_le_bnd (j := j) (k := k) (by omega) (by omega) (by omega)
  omega

/-! ### lookups -/

theorem firstBaseunit_eq {k : Int} (h0 : 0 ≤ k) (h1 : k < tl.len) : tl.firstBaseunit k = .ok (tl.bnd k) := by
  obtain ⟨h, e⟩ := tl.bnd_lt h0 h1
  unfold Timeline.firstBaseunit
  rw [pyGet?_lt _ h0 (by unfold Timeline.len at h1; omega), e]; rfl

theorem lastBaseunit_eq {k : Int} (h0 : 0 ≤ k) (h1 : k < tl.len) : tl.lastBaseunit k = .ok (tl.bnd (k + 1) - 1) := by
  have h1' := h1
  unfold Timeline.len at h1'
  unfold Timeline.lastBaseunit
  rw [pyGet?_lt _ h0 h1']
  simp only
  rcases Int.lt_or_le (k + 1) tl.len with hl | hl
  · obtain ⟨h, e⟩ := tl.bnd_lt (k := k + 1) (by omega) hl
    rw [pyGet?_lt _ (by omega) (by unfold Timeline.len at hl; exact hl), e]
  · rw [pyGet?_ge _ (by unfold Timeline.len at hl; omega), tl.bnd_ge hl]

omit wf in
theorem unitAt_eq {f : Frame} {i : Int} (h0 : 0 ≤ i) (h1 : i < f.n) : f.unitAt i = .ok i := by
  unfold Frame.unitAt
  rw [pyGet?_lt _ h0 (by simpa using h1)]
  simp only [orIndexError, List.getElem_map, List.getElem_range]
  congr 1; omega

theorem bnd_succ_range {k : Int} (h0 : 0 ≤ k) (h1 : k < tl.len) : 0 < tl.bnd (k + 1) ∧ tl.bnd (k + 1) ≤ tl.frame.n := by
  have h2 := (wf.bnd_range h0 h1).1
  have h3 := wf.bnd_lt_bnd h0 (by omega : k < k + 1) (by omega)
  have := wf.bnd_le_bnd (j := k + 1) (k := tl.len) (by omega) (by omega) (by omega)
  rw [tl.bnd_ge (k := tl.len) (by omega)] at this
  omega

theorem wsStart_eq {k : Int} (h0 : 0 ≤ k) (h1 : k < tl.len) : tl.wsStart k = .ok (tl.frame.unitStart (tl.bnd k)) := by
  unfold Timeline.wsStart
  have hb := wf.bnd_range h0 h1
  rw [wf.firstBaseunit_eq h0 h1]
  simp only [Bind.bind, Except.bind, unitAt_eq hb.1 hb.2]; rfl

theorem wsEnd_eq {k : Int} (h0 : 0 ≤ k) (h1 : k < tl.len) :
    tl.wsEnd k = .ok (tl.frame.unitStart (tl.bnd (k + 1)) - 1) := by
  unfold Timeline.wsEnd
  have hb := wf.bnd_succ_range h0 h1
  rw [wf.lastBaseunit_eq h0 h1]
  simp only [Bind.bind, Except.bind, unitAt_eq (f := tl.frame) (show 0 ≤ tl.bnd (k + 1) - 1 by omega) (by omega), Frame.unitEnd_eq]
  have : tl.bnd (k + 1) - 1 + 1 = tl.bnd (k + 1) := by omega
  rw [this]; rfl

theorem wsDuration_eq {k : Int} (h0 : 0 ≤ k) (h1 : k < tl.len) :
    tl.wsDuration k = .ok (tl.bnd (k + 1) - tl.bnd k) := by
  unfold Timeline.wsDuration
  rw [wf.lastBaseunit_eq h0 h1, wf.firstBaseunit_eq h0 h1]
  simp only [Bind.bind, Except.bind, pure, Except.pure]
  congr 1; omega

end Timeline.WF

/-- The reference time of the `k`-th workshift. -/
def Timeline.refTime (tl : Timeline L) (k : Int) : Time :=
  if tl.refEnd then tl.frame.unitStart (tl.bnd (k + 1)) - 1 else tl.frame.unitStart (tl.bnd k)

theorem Timeline.wsRef_ge {tl : Timeline L} {k : Int} (h1 : tl.len ≤ k) : tl.wsRef k = .error .indexError := by
  unfold Timeline.len at h1
  unfold Timeline.wsRef Timeline.wsEnd Timeline.wsStart Timeline.lastBaseunit Timeline.firstBaseunit
  rw [pyGet?_ge _ h1]
  simp [orIndexError, Bind.bind, Except.bind]

namespace Timeline.WF
variable {tl : Timeline L} (wf : tl.WF)
include wf

theorem wsRef_eq {k : Int} (h0 : 0 ≤ k) (h1 : k < tl.len) : tl.wsRef k = .ok (tl.refTime k) := by
  unfold Timeline.wsRef Timeline.refTime
  split
  · exact wf.wsEnd_eq h0 h1
  · exact wf.wsStart_eq h0 h1

theorem refTime_lt {j k : Int} (h0 : 0 ≤ j) (h1 : j < k) (h2 : k < tl.len) : tl.refTime j < tl.refTime k := by
  unfold Timeline.refTime
  have h3 := wf.bnd_lt_bnd h0 h1 (by omega)
  have h4 := wf.bnd_lt_bnd (j := j + 1) (k := k + 1) (by omega) (by omega) (by omega)
  split
  · have := Frame.unitStart_lt (f := tl.frame) h4; omega
  · exact Frame.unitStart_lt h3

/-- The reference time lies within its workshift. -/
theorem refTime_within {k : Int} (h0 : 0 ≤ k) (h1 : k < tl.len) :
    tl.frame.unitStart (tl.bnd k) ≤ tl.refTime k ∧ tl.refTime k < tl.frame.unitStart (tl.bnd (k + 1)) := by
  have := Frame.unitStart_lt (f := tl.frame) (wf.bnd_lt_bnd h0 (by omega : k < k + 1) (by omega))
  unfold Timeline.refTime
  split <;> omega

theorem unitStart_bnd_len : tl.frame.unitStart (tl.bnd tl.len) = tl.frame.endTime + 1 := by
  rw [tl.bnd_ge (Int.le_refl _)]
  unfold Frame.endTime
  rw [Frame.unitEnd_eq]
  have : (tl.frame.n : Int) - 1 + 1 = tl.frame.n := by omega
  rw [this]; omega

theorem findIdx_bnd {k : Int} (h0 : 0 ≤ k) (h1 : k < tl.len) :
    tl.wsIdx.findIdx? (fun x => x == tl.bnd k) = some k.toNat := by
  obtain ⟨h, e⟩ := tl.bnd_lt h0 h1
  rw [List.findIdx?_eq_some_iff_getElem]
  refine ⟨h, by simp [e], ?_⟩
  intro j hj
  have := pairwise_lt_getElem wf.sorted hj h
  rw [e]
  simp; omega

/-- `get_ws_position`. -/
theorem wsPosition_ok_iff (t : Time) (k : Int) :
    tl.wsPosition t = .ok k ↔
      (0 ≤ k ∧ k < tl.len ∧ tl.frame.unitStart (tl.bnd k) ≤ t ∧ t < tl.frame.unitStart (tl.bnd (k + 1))) := by
  have key : ∀ i : Int, tl.frame.getLoc t = .ok i → ∃ k : Int, tl.wsPosition t = .ok k ∧ 0 ≤ k ∧ k < tl.len ∧
      tl.bnd k ≤ i ∧ i < tl.bnd (k + 1) := by
    intro i hi
    obtain ⟨h1, h2, h3, h4⟩ := (Frame.getLoc_ok_iff t i).1 hi
    obtain ⟨k, hk0, hk1, hk2, hk3⟩ := wf.exists_ws h1 h2
    refine ⟨k, ?_, hk0, hk1, hk2, hk3⟩
    unfold Timeline.wsPosition
    obtain ⟨hf, ef⟩ := wf.frameband_eq hk0 hk1 hk2 hk3
    simp only [hi, pyGet?_lt tl.frameband h1 (by omega), ef, wf.findIdx_bnd hk0 hk1]
    congr 1; omega
  constructor
  · intro h
    cases hi : tl.frame.getLoc t with
    | error e => unfold Timeline.wsPosition at h; rw [hi] at h; simp at h
    | ok i =>
      obtain ⟨k', h', hk0, hk1, hk2, hk3⟩ := key i hi
      rw [h] at h'
      simp at h'
      subst h'
      obtain ⟨h1, h2, h3, h4⟩ := (Frame.getLoc_ok_iff t i).1 hi
      rw [Frame.unitEnd_eq] at h4
      refine ⟨hk0, hk1, ?_, ?_⟩
      · have := Frame.unitStart_le_iff (f := tl.frame).2 hk2; omega
      · have := Frame.unitStart_le_iff (f := tl.frame).2 (show i + 1 ≤ tl.bnd (k + 1) by omega); omega
  · rintro ⟨hk0, hk1, hk2, hk3⟩
    obtain ⟨i, hi1, hi2⟩ := tl.frame.exists_unit t
    rw [Frame.unitEnd_eq] at hi2
    have ha : tl.bnd k < i + 1 := (Frame.unitStart_lt_iff (f := tl.frame)).1 (by omega)
    have hb : i < tl.bnd (k + 1) := (Frame.unitStart_lt_iff (f := tl.frame)).1 (by omega)
    have hr := wf.bnd_range hk0 hk1
    have hr' := wf.bnd_succ_range hk0 hk1
    obtain ⟨k', h', hk0', hk1', hk2', hk3'⟩ := key i ((Frame.getLoc_ok_iff t i).2
      ⟨by omega, by omega, hi1, by rw [Frame.unitEnd_eq]; omega⟩)
    have := wf.ws_unique hk0 hk1 hk0' hk1' (by omega) hb hk2' hk3'
    rw [this]; exact h'

theorem wsPosition_error_iff (t : Time) (e : Err) :
    tl.wsPosition t = .error e ↔ (e = .outOfBounds ∧ (t < tl.frame.startTime ∨ tl.frame.endTime < t)) := by
  cases hi : tl.frame.getLoc t with
  | error e' =>
    have := (Frame.getLoc_error_iff t e').1 hi
    unfold Timeline.wsPosition
    rw [hi]
    simp only [Except.error.injEq]
    constructor
    · intro h; exact ⟨h.symm, this.2⟩
    · intro h; exact h.1.symm
  | ok i =>
    obtain ⟨h1, h2, h3, h4⟩ := (Frame.getLoc_ok_iff t i).1 hi
    obtain ⟨k, hk0, hk1, hk2, hk3⟩ := wf.exists_ws h1 h2
    have h5 : tl.wsPosition t = .ok k := by
      rw [wf.wsPosition_ok_iff]
      rw [Frame.unitEnd_eq] at h4
      refine ⟨hk0, hk1, ?_, ?_⟩
      · have := Frame.unitStart_le_iff (f := tl.frame).2 hk2; omega
      · have := Frame.unitStart_le_iff (f := tl.frame).2 (show i + 1 ≤ tl.bnd (k + 1) by omega); omega
    rw [h5]
    have h6 : ¬ (tl.frame.getLoc t = .error .keyError) := by rw [hi]; simp
    rw [Frame.getLoc_error_iff] at h6
    simp only [true_and] at h6
    constructor
    · intro h; cases h
    · intro h; exact absurd h.2 h6

end Timeline.WF
end TB
