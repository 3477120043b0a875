import Verif.Lemmas.Timeline
/-! Laws of timelines: durations, search by reference time, amendments, data frames. -/
namespace TB
set_option linter.unusedSectionVars false
variable {L : Type}

namespace Timeline.WF
variable {tl : Timeline L} (wf : tl.WF)
include wf

theorem getElem_frameband_lt_iff {k : Int} (h0 : 0 ≤ k) (h1 : k < tl.len) (i : Nat) (hi : i < tl.frameband.length) :
    tl.frameband[i] < tl.bnd k ↔ (i : Int) < tl.bnd k := by
  have hn := wf.fb_len
  obtain ⟨j, hj0, hj1, hj2, hj3⟩ := wf.exists_ws (i := i) (by omega) (by omega)
  obtain ⟨_, e⟩ := wf.frameband_eq hj0 hj1 hj2 hj3
  simp at e
  rw [e, wf.bnd_lt_iff hj0 (by omega) h0 (by omega)]
  constructor
  · intro h; have := wf.bnd_le_bnd (j := j + 1) (k := k) (by omega) (by omega) (by omega); omega
  · intro h; exact (wf.bnd_lt_iff hj0 (by omega) h0 (by omega)).1 (by omega)

theorem getElem_frameband_le_iff {k : Int} (h0 : 0 ≤ k) (h1 : k < tl.len) (i : Nat) (hi : i < tl.frameband.length) :
    tl.frameband[i] ≤ tl.bnd k ↔ (i : Int) < tl.bnd (k + 1) := by
  have hn := wf.fb_len
  obtain ⟨j, hj0, hj1, hj2, hj3⟩ := wf.exists_ws (i := i) (by omega) (by omega)
  obtain ⟨_, e⟩ := wf.frameband_eq hj0 hj1 hj2 hj3
  simp at e
  have h5 := wf.bnd_lt_iff (j := k) (k := j) h0 (by omega) hj0 (by omega)
  rw [e]
  constructor
  · intro h
    have := wf.bnd_le_bnd (j := j + 1) (k := k + 1) (by omega) (by omega) (by omega); omega
  · intro h
    have := (wf.bnd_lt_iff (j := j) (k := k + 1) hj0 (by omega) (by omega) (by omega)).1 (by omega)
    omega

theorem pairwise_frameband : tl.frameband.Pairwise (· ≤ ·) := by
  rw [List.pairwise_iff_getElem]
  intro i j hi hj hij
  obtain ⟨f1, f2, f3⟩ := wf.fb j hj
  obtain ⟨g1, g2, g3⟩ := wf.fb i hi
  exact f3 _ g1 (by omega)

theorem ssLeft_frameband {k : Int} (h0 : 0 ≤ k) (h1 : k < tl.len) : ssLeft tl.frameband (tl.bnd k) = tl.bnd k := by
  have hn := wf.fb_len
  have hb := wf.bnd_range h0 h1
  have := ssLeft_unique wf.pairwise_frameband (tl.bnd k) (tl.bnd k).toNat (by omega)
    (fun i hi h => (wf.getElem_frameband_lt_iff h0 h1 i hi).2 (by omega))
    (fun i hi h => by have := (wf.getElem_frameband_lt_iff h0 h1 i hi); omega)
  omega

theorem ssRight_frameband {k : Int} (h0 : 0 ≤ k) (h1 : k < tl.len) :
    ssRight tl.frameband (tl.bnd k) = tl.bnd (k + 1) := by
  have hn := wf.fb_len
  have hb := wf.bnd_succ_range h0 h1
  have := ssRight_unique wf.pairwise_frameband (tl.bnd k) (tl.bnd (k + 1)).toNat (by omega)
    (fun i hi h => (wf.getElem_frameband_le_iff h0 h1 i hi).2 (by omega))
    (fun i hi h => by have := (wf.getElem_frameband_le_iff h0 h1 i hi); omega)
  omega

theorem mapM_firstBaseunit {ks : List Int} (h : ∀ k ∈ ks, 0 ≤ k ∧ k < tl.len) :
    ks.mapM (fun n => tl.firstBaseunit n) = .ok (ks.map tl.bnd) := by
  induction ks with
  | nil => rfl
  | cons k ks ih =>
    have h1 := h k (by simp)
    rw [List.mapM_cons, ih (fun x hx => h x (by simp [hx])), wf.firstBaseunit_eq h1.1 h1.2]
    rfl

/-- `get_durations_for_ws_array` agrees with `get_ws_duration`. -/
theorem durationsFor_eq {ks : List Int} (h : ∀ k ∈ ks, 0 ≤ k ∧ k < tl.len) :
    tl.durationsFor ks = .ok (ks.map (fun k => tl.bnd (k + 1) - tl.bnd k)) := by
  unfold Timeline.durationsFor
  rw [wf.mapM_firstBaseunit h]
  simp only [Bind.bind, Except.bind, pure, Except.pure, List.map_map]
  congr 1
  apply List.map_congr_left
  intro k hk
  have h1 := h k hk
  simp only [Function.comp, wf.ssLeft_frameband h1.1 h1.2, wf.ssRight_frameband h1.1 h1.2]

/-! ### search by reference time -/

theorem afterLoop_spec (t : Time) (fuel : Nat) : ∀ c : Int, 0 ≤ c → c ≤ tl.len → tl.len < c + fuel →
    (∃ k, tl.afterLoop t fuel c = .ok k ∧ c ≤ k ∧ k < tl.len ∧ t ≤ tl.refTime k ∧ ∀ j, c ≤ j → j < k → tl.refTime j < t) ∨
    (tl.afterLoop t fuel c = .error .outOfBounds ∧ ∀ j, c ≤ j → j < tl.len → tl.refTime j < t) := by
  induction fuel with
  | zero =>
    intro c h0 h0' h1
    omega
  | succ n ih =>
    intro c h0 h0' h1
    unfold Timeline.afterLoop
    rcases Int.lt_or_le c tl.len with hc | hc
    · rw [wf.wsRef_eq h0 hc]
      simp only
      by_cases hr : tl.refTime c ≥ t
      · rw [if_pos hr]
        left
        exact ⟨c, rfl, by omega, hc, hr, fun j h2 h3 => by omega⟩
      · rw [if_neg hr]
        rcases ih (c + 1) (by omega) (by omega) (by omega) with ⟨k, h2, h3, h4, h5, h6⟩ | ⟨h2, h3⟩
        · left
          refine ⟨k, h2, by omega, h4, h5, fun j h7 h8 => ?_⟩
          rcases Int.lt_or_eq_of_le h7 with h9 | h9
          · exact h6 j (by omega) h8
          · subst h9; omega
        · right
          refine ⟨h2, fun j h7 h8 => ?_⟩
          rcases Int.lt_or_eq_of_le h7 with h9 | h9
          · exact h3 j (by omega) h8
          · subst h9; omega
    · rw [tl.wsRef_ge hc]
      right
      exact ⟨rfl, fun j h2 h3 => by omega⟩

theorem beforeLoop_spec (t : Time) (fuel : Nat) : ∀ c : Int, 0 ≤ c → c < tl.len → c < fuel →
    (∃ k, tl.beforeLoop t fuel c = .ok k ∧ 0 ≤ k ∧ k ≤ c ∧ tl.refTime k ≤ t ∧ ∀ j, k < j → j ≤ c → t < tl.refTime j) ∨
    (tl.beforeLoop t fuel c = .error .outOfBounds ∧ ∀ j, 0 ≤ j → j ≤ c → t < tl.refTime j) := by
  induction fuel with
  | zero => intro c h0 h0' h1; omega
  | succ n ih =>
    intro c h0 hc h1
    unfold Timeline.beforeLoop
    rw [wf.wsRef_eq h0 hc]
    simp only
    by_cases hr : tl.refTime c ≤ t
    · rw [if_pos hr]
      left
      exact ⟨c, rfl, h0, by omega, hr, fun j h2 h3 => by omega⟩
    · rw [if_neg hr]
      by_cases hz : c ≤ 0
      · rw [if_pos hz]
        right
        refine ⟨rfl, fun j h2 h3 => ?_⟩
        have : j = c := by omega
        subst this; omega
      · rw [if_neg hz]
        rcases ih (c - 1) (by omega) (by omega) (by omega) with ⟨k, h2, h3, h4, h5, h6⟩ | ⟨h2, h3⟩
        · left
          refine ⟨k, h2, h3, by omega, h5, fun j h7 h8 => ?_⟩
          rcases Int.lt_or_eq_of_le h8 with h9 | h9
          · exact h6 j h7 (by omega)
          · subst h9; omega
        · right
          refine ⟨h2, fun j h7 h8 => ?_⟩
          rcases Int.lt_or_eq_of_le h8 with h9 | h9
          · exact h3 j h7 (by omega)
          · subst h9; omega

theorem refTime_lt_of_pos {j c : Int} {t : Time} (h0 : 0 ≤ j) (h1 : j < c) (h2 : c < tl.len)
    (h3 : tl.frame.unitStart (tl.bnd c) ≤ t) : tl.refTime j < t := by
  have h4 := (wf.refTime_within h0 (by omega)).2
  have h5 := Frame.unitStart_le_iff (f := tl.frame).2 (wf.bnd_le_bnd (j := j + 1) (k := c) (by omega) (by omega) (by omega))
  omega

theorem lt_refTime_of_pos {j c : Int} {t : Time} (h0 : 0 ≤ c) (h1 : c < j) (h2 : j < tl.len)
    (h3 : t < tl.frame.unitStart (tl.bnd (c + 1))) : t < tl.refTime j := by
  have h4 := (wf.refTime_within (by omega) h2).1
  have h5 := Frame.unitStart_le_iff (f := tl.frame).2 (wf.bnd_le_bnd (j := c + 1) (k := j) (by omega) (by omega) (by omega))
  omega

/-- A point is within the frame exactly when some workshift contains it. -/
theorem exists_position {t : Time} (h1 : tl.frame.startTime ≤ t) (h2 : t ≤ tl.frame.endTime) :
    ∃ c, tl.wsPosition t = .ok c := by
  cases h : tl.wsPosition t with
  | ok c => exact ⟨c, rfl⟩
  | error e => have := (wf.wsPosition_error_iff t e).1 h; omega

theorem position_in_frame {t : Time} {c : Int} (h : tl.wsPosition t = .ok c) :
    tl.frame.startTime ≤ t ∧ t ≤ tl.frame.endTime := by
  have h' : ¬ (tl.wsPosition t = .error .outOfBounds) := by rw [h]; simp
  rw [wf.wsPosition_error_iff] at h'
  simp only [true_and] at h'
  omega

/-- `get_ws_pos_by_ref_after`: the earliest workshift whose reference time is not before the point. -/
theorem posByRefAfter_ok_iff (t : Time) (k : Int) :
    tl.posByRefAfter t = .ok k ↔
      (tl.frame.startTime ≤ t ∧ t ≤ tl.frame.endTime ∧ 0 ≤ k ∧ k < tl.len ∧ t ≤ tl.refTime k ∧
        ∀ j, 0 ≤ j → j < k → tl.refTime j < t) := by
  unfold Timeline.posByRefAfter
  cases h : tl.wsPosition t with
  | error e =>
    have := (wf.wsPosition_error_iff t e).1 h
    simp only [Bind.bind, Except.bind]
    constructor
    · intro h; cases h
    · rintro ⟨h1, h2, _⟩; omega
  | ok c =>
    have hf := wf.position_in_frame h
    obtain ⟨hc0, hc1, hc2, hc3⟩ := (wf.wsPosition_ok_iff t c).1 h
    simp only [Bind.bind, Except.bind]
    rcases wf.afterLoop_spec t (tl.wsIdx.length + 1) c hc0 (by omega) (by unfold Timeline.len; omega) with
      ⟨k', h2, h3, h4, h5, h6⟩ | ⟨h2, h3⟩
    · rw [h2]
      have h7 : ∀ j, 0 ≤ j → j < k' → tl.refTime j < t := by
        intro j hj1 hj2
        rcases Int.lt_or_le j c with hj | hj
        · exact wf.refTime_lt_of_pos hj1 hj hc1 hc2
        · exact h6 j hj hj2
      constructor
      · intro h; cases h; exact ⟨hf.1, hf.2, by omega, h4, h5, h7⟩
      · rintro ⟨_, _, g1, g2, g3, g4⟩
        congr 1
        rcases Int.lt_trichotomy k' k with g | g | g
        · have := g4 k' (by omega) g; omega
        · exact g
        · have := h7 k g1 g; omega
    · rw [h2]
      constructor
      · intro h; cases h
      · rintro ⟨_, _, g1, g2, g3, g4⟩
        rcases Int.lt_or_le k c with hj | hj
        · have := wf.refTime_lt_of_pos g1 hj hc1 hc2; omega
        · have := h3 k hj g2; omega

theorem posByRefAfter_error_iff (t : Time) (e : Err) :
    tl.posByRefAfter t = .error e ↔
      (e = .outOfBounds ∧ (t < tl.frame.startTime ∨ tl.frame.endTime < t ∨ ∀ j, 0 ≤ j → j < tl.len → tl.refTime j < t)) := by
  unfold Timeline.posByRefAfter
  cases h : tl.wsPosition t with
  | error e' =>
    have := (wf.wsPosition_error_iff t e').1 h
    simp only [Bind.bind, Except.bind, Except.error.injEq]
    constructor
    · intro h
      refine ⟨by rw [← h]; exact this.1, ?_⟩
      rcases this.2 with h1 | h1
      · exact .inl h1
      · exact .inr (.inl h1)
    · rintro ⟨h1, _⟩; rw [h1]; exact this.1
  | ok c =>
    have hf := wf.position_in_frame h
    obtain ⟨hc0, hc1, hc2, hc3⟩ := (wf.wsPosition_ok_iff t c).1 h
    simp only [Bind.bind, Except.bind]
    rcases wf.afterLoop_spec t (tl.wsIdx.length + 1) c hc0 (by omega) (by unfold Timeline.len; omega) with
      ⟨k', h2, h3, h4, h5, h6⟩ | ⟨h2, h3⟩
    · rw [h2]
      constructor
      · intro h; cases h
      · rintro ⟨_, g | g | g⟩
        · omega
        · omega
        · have := g k' (by omega) h4; omega
    · rw [h2]
      constructor
      · intro h; cases h
        refine ⟨rfl, .inr (.inr fun j hj1 hj2 => ?_)⟩
        rcases Int.lt_or_le j c with hj | hj
        · exact wf.refTime_lt_of_pos hj1 hj hc1 hc2
        · exact h3 j hj hj2
      · rintro ⟨rfl, _⟩; rfl

/-- `get_ws_pos_by_ref_before`: the latest workshift whose reference time is not after the point. -/
theorem posByRefBefore_ok_iff (t : Time) (k : Int) :
    tl.posByRefBefore t = .ok k ↔
      (tl.frame.startTime ≤ t ∧ t ≤ tl.frame.endTime ∧ 0 ≤ k ∧ k < tl.len ∧ tl.refTime k ≤ t ∧
        ∀ j, k < j → j < tl.len → t < tl.refTime j) := by
  unfold Timeline.posByRefBefore
  cases h : tl.wsPosition t with
  | error e =>
    have := (wf.wsPosition_error_iff t e).1 h
    simp only [Bind.bind, Except.bind]
    constructor
    · intro h; cases h
    · rintro ⟨h1, h2, _⟩; omega
  | ok c =>
    have hf := wf.position_in_frame h
    obtain ⟨hc0, hc1, hc2, hc3⟩ := (wf.wsPosition_ok_iff t c).1 h
    simp only [Bind.bind, Except.bind]
    rcases wf.beforeLoop_spec t (tl.wsIdx.length + 1) c hc0 (by omega) (by unfold Timeline.len at hc1; omega) with
      ⟨k', h2, h3, h4, h5, h6⟩ | ⟨h2, h3⟩
    · rw [h2]
      have h7 : ∀ j, k' < j → j < tl.len → t < tl.refTime j := by
        intro j hj1 hj2
        rcases Int.lt_or_le c j with hj | hj
        · exact wf.lt_refTime_of_pos hc0 hj hj2 hc3
        · exact h6 j hj1 hj
      constructor
      · intro h; cases h; exact ⟨hf.1, hf.2, by omega, by omega, h5, h7⟩
      · rintro ⟨_, _, g1, g2, g3, g4⟩
        congr 1
        rcases Int.lt_trichotomy k' k with g | g | g
        · have := h7 k g g2; omega
        · exact g
        · have := g4 k' g (by omega); omega
    · rw [h2]
      constructor
      · intro h; cases h
      · rintro ⟨_, _, g1, g2, g3, g4⟩
        rcases Int.lt_or_le c k with hj | hj
        · have := wf.lt_refTime_of_pos hc0 hj g2 hc3; omega
        · have := h3 k g1 hj; omega

theorem posByRefBefore_error_iff (t : Time) (e : Err) :
    tl.posByRefBefore t = .error e ↔
      (e = .outOfBounds ∧ (t < tl.frame.startTime ∨ tl.frame.endTime < t ∨ ∀ j, 0 ≤ j → j < tl.len → t < tl.refTime j)) := by
  unfold Timeline.posByRefBefore
  cases h : tl.wsPosition t with
  | error e' =>
    have := (wf.wsPosition_error_iff t e').1 h
    simp only [Bind.bind, Except.bind, Except.error.injEq]
    constructor
    · intro h
      refine ⟨by rw [← h]; exact this.1, ?_⟩
      rcases this.2 with h1 | h1
      · exact .inl h1
      · exact .inr (.inl h1)
    · rintro ⟨h1, _⟩; rw [h1]; exact this.1
  | ok c =>
    have hf := wf.position_in_frame h
    obtain ⟨hc0, hc1, hc2, hc3⟩ := (wf.wsPosition_ok_iff t c).1 h
    simp only [Bind.bind, Except.bind]
    rcases wf.beforeLoop_spec t (tl.wsIdx.length + 1) c hc0 (by omega) (by unfold Timeline.len at hc1; omega) with
      ⟨k', h2, h3, h4, h5, h6⟩ | ⟨h2, h3⟩
    · rw [h2]
      constructor
      · intro h; cases h
      · rintro ⟨_, g | g | g⟩
        · omega
        · omega
        · have := g k' (by omega) (by omega); omega
    · rw [h2]
      constructor
      · intro h; cases h
        refine ⟨rfl, .inr (.inr fun j hj1 hj2 => ?_)⟩
        rcases Int.lt_or_le c j with hj | hj
        · exact wf.lt_refTime_of_pos hc0 hj hj2 hc3
        · exact h3 j hj1 hj
      · rintro ⟨rfl, _⟩; rfl

end Timeline.WF
end TB
