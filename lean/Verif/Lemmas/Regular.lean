import Verif.Lemmas.MarkerHow
import Verif.Lemmas.Years
/-! The built-in `how` functions make regular markers. -/
namespace TB

/-- Snapping stays in the period. -/
theorem snap_within {bu each : Freq} (hal : ∀ o, ∃ o', each.base.startOf o = bu.base.startOf o') {o : Int} {t : Time}
    (g1 : each.base.startOf o ≤ t) : each.base.startOf o ≤ snap bu t := by
  obtain ⟨o', e⟩ := hal o
  rw [e] at g1 ⊢
  unfold snap
  rw [bu.base.startOf_le_startOf]
  rw [← bu.base.ordOf_startOf o']
  exact Base.ordOf_mono _ g1

theorem snap_le_self (bu : Freq) (t : Time) : snap bu t ≤ t := bu.base.startOf_le_self t

theorem snap_snap (bu : Freq) (t : Time) : snap bu (snap bu t) = snap bu t := by
  unfold snap; rw [Base.ordOf_startOf]

/-- `Marker(each, at=[{...}, ...])` with offsets none of which leads back in time. -/
theorem regular_offsets {bu each : Freq} {offs : List Offset} (hc : checkGroupbyFreq bu each = true) (hm : each.mult = 1) (hne : offs ≠ [])
    (hpos : ∀ o ∈ offs, o.Nonneg) :
    Marker.Regular bu ⟨each, offs.map (fun o => fromStartOfEach (some o))⟩ ∧
    ∀ t, Marker.Mark bu ⟨each, offs.map (fun o => fromStartOfEach (some o))⟩ t ↔
      ∃ off ∈ offs, ∃ p : Period, p.freq = each ∧ addOffset p.startTime (some off) ≤ p.endTime ∧ t = snap bu (addOffset p.startTime (some off)) := by
  obtain ⟨_, hal⟩ := checkGroupby_unit hc hm
  have hus : ∀ (pi : Frame), pi.freq = each → ∀ i, pi.unitStart i = each.base.startOf (pi.o0 + i) := by
    intro pi hf i; unfold Frame.unitStart Frame.ord; rw [hf, hm]; congr 1; omega
  have hue : ∀ (pi : Frame), pi.freq = each → ∀ i, pi.unitEnd i = each.base.startOf (pi.o0 + i + 1) - 1 := by
    intro pi hf i; rw [Frame.unitEnd_eq, hus pi hf]; congr 2; omega
  have key : ∀ off ∈ offs, ∀ pi : Frame, pi.freq = each → ∃ ts, fromStartOfEach (some off) pi bu = .ok ts ∧
      ∀ t, t ∈ ts ↔ ∃ o, pi.o0 ≤ o ∧ o < pi.o0 + pi.n ∧ addOffset (each.base.startOf o) (some off) < each.base.startOf (o + 1) ∧
        t = snap bu (addOffset (each.base.startOf o) (some off)) := by
    intro off ho pi hf
    have hcmp : ∀ o, snap bu (addOffset (each.base.startOf o) (some off)) < each.base.startOf (o + 1) ↔
        addOffset (each.base.startOf o) (some off) < each.base.startOf (o + 1) := by
      intro o
      constructor
      · intro h
        rcases Int.lt_or_le (addOffset (each.base.startOf o) (some off)) (each.base.startOf (o + 1)) with h' | h'
        · exact h'
        · have := snap_within hal h'; omega
      · intro h
        have := snap_le_self bu (addOffset (each.base.startOf o) (some off))
        omega
    refine ⟨_, fromStartOfEach_eq ((hpos off ho).le_add _), ?_⟩
    intro t
    simp only [List.mem_map, List.mem_filter, List.mem_range, decide_eq_true_eq, hus pi hf, hue pi hf]
    constructor
    · rintro ⟨i, ⟨h1, h2⟩, rfl⟩
      exact ⟨pi.o0 + i, by omega, by omega, (hcmp _).1 (by omega), rfl⟩
    · rintro ⟨o, h1, h2, h3, rfl⟩
      have e : pi.o0 + (((o - pi.o0).toNat : Nat) : Int) = o := by omega
      refine ⟨(o - pi.o0).toNat, ⟨by omega, ?_⟩, by rw [e]⟩
      rw [e]
      have := (hcmp o).2 h3
      omega
  have hat : ∀ off ∈ offs, ∀ o t, t ∈ howAt (fromStartOfEach (some off)) each bu o ↔
      addOffset (each.base.startOf o) (some off) < each.base.startOf (o + 1) ∧ t = snap bu (addOffset (each.base.startOf o) (some off)) := by
    intro off ho o t
    obtain ⟨ts, h1, h2⟩ := key off ho ⟨each, o, 1⟩ rfl
    unfold howAt
    rw [h1]
    simp only [h2]
    constructor
    · rintro ⟨o', h3, h4, h5⟩
      have : o' = o := by omega
      subst this; exact h5
    · intro h; exact ⟨o, by omega, by omega, h⟩
  constructor
  · refine ⟨hm, by simpa using hne, ?_, ?_⟩
    · intro g hg pi hf hn
      obtain ⟨off, ho, rfl⟩ := List.mem_map.1 hg
      obtain ⟨ts, h1, h2⟩ := key off ho pi hf
      refine ⟨ts, h1, fun t => ?_⟩
      rw [h2]
      simp only [hat off ho]
    · intro g hg o t ht
      obtain ⟨off, ho, rfl⟩ := List.mem_map.1 hg
      obtain ⟨h1, h2⟩ := (hat off ho o t).1 ht
      have hnn := (hpos off ho).le_add (each.base.startOf o)
      have a1 := snap_within hal hnn
      have a2 := snap_le_self bu (addOffset (each.base.startOf o) (some off))
      rw [h2]
      exact ⟨a1, by simp only; omega, (snap_snap _ _).symm⟩
  · intro t
    unfold Marker.Mark
    constructor
    · rintro ⟨o, g, hg, ht⟩
      obtain ⟨off, ho, rfl⟩ := List.mem_map.1 hg
      obtain ⟨h1, h2⟩ := (hat off ho o t).1 ht
      refine ⟨off, ho, ⟨each, o⟩, rfl, ?_, h2⟩
      unfold Period.endTime
      simp only [Period.startTime, hm, Int.natCast_one]
      omega
    · rintro ⟨off, ho, ⟨g, o⟩, hg, h3, h4⟩
      simp only at hg
      subst hg
      have h3' : addOffset (g.base.startOf o) (some off) ≤ g.base.startOf (o + g.mult) - 1 := h3
      rw [hm] at h3'
      simp only [Int.natCast_one] at h3'
      exact ⟨o, _, List.mem_map_of_mem ho, (hat off ho o t).2 ⟨by omega, h4⟩⟩

/-- Base units of a day or shorter. -/
def Freq.Daily (bu : Freq) : Prop := bu.base = .S ∨ bu.base = .T ∨ bu.base = .H ∨ bu.base = .D

theorem Freq.Daily.snap_midnight {bu : Freq} (h : bu.Daily) (d : Int) : snap bu (d * nsDay) = d * nsDay := by
  unfold snap
  rcases h with h | h | h | h <;> rw [h] <;> simp only [Base.startOf, Base.ordOf, nsSec, nsMin, nsHour, nsDay] <;> omega

end TB
