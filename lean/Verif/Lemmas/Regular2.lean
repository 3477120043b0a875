import Verif.Lemmas.Regular
import Verif.Props.When
import Verif.Props.MarkerAt
/-! The built-in `how` functions for weekdays and Easter make regular markers. -/
namespace TB

/-- Only the position matters in the description of one function. -/
theorem regular_of_key {bu each : Freq} {α : Type} {args : List α} {how : α → Frame → Freq → Except Err (List Time)} {M : α → Int → Time → Prop}
    (hm : each.mult = 1) (hne : args ≠ [])
    (key : ∀ x ∈ args, ∀ pi : Frame, pi.freq = each → ∃ ts, how x pi bu = .ok ts ∧
      ∀ t, t ∈ ts ↔ ∃ o, pi.o0 ≤ o ∧ o < pi.o0 + pi.n ∧ M x o t)
    (hw : ∀ x ∈ args, ∀ o t, M x o t → each.base.startOf o ≤ t ∧ t < each.base.startOf (o + 1) ∧ t = snap bu t) :
    Marker.Regular bu ⟨each, args.map how⟩ ∧ ∀ t, Marker.Mark bu ⟨each, args.map how⟩ t ↔ ∃ x ∈ args, ∃ o, M x o t := by
  have hat : ∀ x ∈ args, ∀ o t, t ∈ howAt (how x) each bu o ↔ M x o t := by
    intro x hx o t
    obtain ⟨ts, h1, h2⟩ := key x hx ⟨each, o, 1⟩ rfl
    unfold howAt
    rw [h1]
    simp only [h2]
    constructor
    · rintro ⟨o', h3, h4, h5⟩
      have : o' = o := by omega
      subst this; exact h5
    · intro h; exact ⟨o, by omega, by omega, h⟩
  constructor
  · refine ⟨hm, by simpa using hne, ?_, ?_⟩
    · intro g hg pi hf _
      obtain ⟨x, hx, rfl⟩ := List.mem_map.1 hg
      obtain ⟨ts, h1, h2⟩ := key x hx pi hf
      exact ⟨ts, h1, fun t => by rw [h2]; simp only [hat x hx]⟩
    · intro g hg o t ht
      obtain ⟨x, hx, rfl⟩ := List.mem_map.1 hg
      exact hw x hx o t ((hat x hx o t).1 ht)
  · intro t
    unfold Marker.Mark
    constructor
    · rintro ⟨o, g, hg, ht⟩
      obtain ⟨x, hx, rfl⟩ := List.mem_map.1 hg
      exact ⟨x, hx, o, (hat x hx o t).1 ht⟩
    · rintro ⟨x, hx, o, h⟩
      exact ⟨o, _, List.mem_map_of_mem hx, (hat x hx o t).2 h⟩

/-- `Marker(each, at=[{'month': .., 'week': .., 'weekday': ..}, ...], how='nth_weekday_of_month')`, without `shift`. -/
def weekdayMarker (each : Freq) (args : List (Int × Int × Int)) : Marker :=
  ⟨each, args.map (fun x => nthWeekdayOfMonth x.1 x.2.1 x.2.2 none)⟩

/-- `Marker('A', at=[{'shift': ..}, ...], how='from_easter_western')`. -/
def easterMarker (shifts : List Int) : Marker := ⟨(Denom.A none).freq, shifts.map (fun x => fromEaster false (some x) none)⟩

theorem regular_weekday {bu each : Freq} {args : List (Int × Int × Int)} (hm : each.mult = 1) (hmon : each.base.Monthly) (hd : bu.Daily)
    (hne : args ≠ []) (hargs : ∀ x ∈ args, NthArgs x.1 x.2.1 x.2.2) :
    (weekdayMarker each args).Regular bu ∧ ∀ t, (weekdayMarker each args).Mark bu t ↔
      ∃ x ∈ args, ∃ p : Period, p.freq = each ∧ ∃ k d, k = monthOf (dayOf p.startTime) + (x.1 - 1) ∧ monthStart k * nsDay ≤ p.endTime ∧
        IsNthWeekday k (x.2.2 - 1) x.2.1 d ∧ t = d * nsDay := by
  have hus : ∀ (pi : Frame), pi.freq = each → ∀ i, pi.unitStart i = each.base.startOf (pi.o0 + i) := by
    intro pi hf i; unfold Frame.unitStart Frame.ord; rw [hf, hm]; congr 1; omega
  have hue : ∀ (pi : Frame), pi.freq = each → ∀ i, pi.unitEnd i = each.base.startOf (pi.o0 + i + 1) - 1 := by
    intro pi hf i; rw [Frame.unitEnd_eq, hus pi hf]; congr 2; omega
  obtain ⟨h1, h2⟩ := regular_of_key (bu := bu) (each := each) (args := args)
    (how := fun x => nthWeekdayOfMonth x.1 x.2.1 x.2.2 none)
    (M := fun x o t => ∃ k d, k = monthOf (dayOf (each.base.startOf o)) + (x.1 - 1) ∧ monthStart k * nsDay ≤ each.base.startOf (o + 1) - 1 ∧
        IsNthWeekday k (x.2.2 - 1) x.2.1 d ∧ t = d * nsDay) hm hne
    (by
      intro x hx pi hf
      obtain ⟨ts, g1, _, g2⟩ := C49_nth_weekday x.1 x.2.1 x.2.2 none pi bu (hargs x hx) (by rw [hf]; exact hmon)
      refine ⟨ts, g1, fun t => ?_⟩
      rw [g2]
      simp only [hus pi hf, hue pi hf, Option.getD_none, Int.add_zero]
      constructor
      · rintro ⟨i, hi, k, d, h⟩
        exact ⟨pi.o0 + i, by omega, by omega, k, d, h⟩
      · rintro ⟨o, h3, h4, h5⟩
        have e : pi.o0 + (((o - pi.o0).toNat : Nat) : Int) = o := by omega
        refine ⟨(o - pi.o0).toNat, by omega, ?_⟩
        rw [e]; exact h5)
    (by
      rintro x hx o t ⟨k, d, rfl, h3, h4, rfl⟩
      obtain ⟨c, P, hP, hu⟩ := (Frame.mk each o 1).monthly hmon
      have e0 : each.base.startOf o = monthStart c * nsDay := by
        have := hu 0
        rw [hus _ rfl] at this
        simpa using this
      have e1 : each.base.startOf (o + 1) = monthStart (c + P) * nsDay := by
        have := hu 1
        rw [hus _ rfl] at this
        simpa using this
      rw [e0, dayOf_mul, monthOf_monthStart] at h3 h4
      rw [e0, e1]
      rw [e1] at h3
      have a1 := (hargs x hx).1
      have b1 := h4.1
      have b2 := h4.2.1
      have hlt : c + (x.1 - 1) < c + P := by
        rcases Int.lt_or_le (c + (x.1 - 1)) (c + P) with h | h
        · exact h
        · have := Int.mul_le_mul_of_nonneg_right (monthStart_le h) (show 0 ≤ nsDay by decide)
          omega
      have c1 := monthStart_le (show c ≤ c + (x.1 - 1) by omega)
      have c2 := monthStart_le (show c + (x.1 - 1) + 1 ≤ c + P by omega)
      refine ⟨Int.mul_le_mul_of_nonneg_right (by omega) (by decide), Int.mul_lt_mul_of_pos_right (by omega) nsDay_pos, (hd.snap_midnight d).symm⟩)
  refine ⟨h1, fun t => ?_⟩
  unfold weekdayMarker
  rw [h2]
  constructor
  · rintro ⟨x, hx, o, k, d, g1, g2, g3⟩
    refine ⟨x, hx, ⟨each, o⟩, rfl, k, d, g1, ?_, g3⟩
    unfold Period.endTime
    simp only [hm, Int.natCast_one]
    omega
  · rintro ⟨x, hx, ⟨g, o⟩, hg, k, d, g1, g2, g3⟩
    simp only at hg
    subst hg
    refine ⟨x, hx, o, k, d, g1, ?_, g3⟩
    have g2' : monthStart k * nsDay ≤ g.base.startOf (o + g.mult) - 1 := g2
    rw [hm] at g2'
    simpa using g2'

theorem regular_easter {bu : Freq} {shifts : List Int} (hd : bu.Daily) (hne : shifts ≠ []) :
    (easterMarker shifts).Regular bu ∧ ∀ t, (easterMarker shifts).Mark bu t ↔
      ∃ sh ∈ shifts, ∃ y, t = (easterDay false y + sh) * nsDay ∧ date y 1 1 ≤ t ∧ t < date (y + 1) 1 1 := by
  have hst : ∀ o, (Denom.A none).freq.base.startOf o = date (o + 1970) 1 1 := by
    intro o
    have := years_start (o + 1970) 1 0
    unfold years Frame.unitStart Frame.ord at this
    simp only [Int.mul_zero, Int.add_zero] at this
    rw [show o + 1970 - 1970 = o by omega] at this
    exact this
  obtain ⟨h1, h2⟩ := regular_of_key (bu := bu) (each := (Denom.A none).freq) (args := shifts)
    (how := fun x => fromEaster false (some x) none)
    (M := fun x o t => t = (easterDay false (o + 1970) + x) * nsDay ∧ date (o + 1970) 1 1 ≤ t ∧ t < date (o + 1970 + 1) 1 1) rfl hne
    (by
      intro x hx pi hf
      have e : pi = years (pi.o0 + 1970) pi.n := by
        obtain ⟨fq, o0, n⟩ := pi
        simp only at hf
        subst hf
        unfold years
        congr 1
        simp only; omega
      obtain ⟨ts, g1, g2⟩ := C62_easter_marks_partial false x (pi.o0 + 1970) pi.n bu (by simp) hd
      refine ⟨ts, by rw [e]; exact g1, fun t => ?_⟩
      rw [g2]
      constructor
      · rintro ⟨y, h3, h4, h5⟩
        exact ⟨y - 1970, by omega, by omega, by rw [show y - 1970 + 1970 = y by omega]; exact h5⟩
      · rintro ⟨o, h3, h4, h5⟩
        exact ⟨o + 1970, by omega, by omega, h5⟩)
    (by
      rintro x hx o t ⟨h3, h4, h5⟩
      rw [hst, hst]
      refine ⟨h4, by rw [show o + 1 + 1970 = o + 1970 + 1 by omega]; exact h5, ?_⟩
      rw [h3]; exact (hd.snap_midnight _).symm)
  refine ⟨h1, fun t => ?_⟩
  unfold easterMarker
  rw [h2]
  constructor
  · rintro ⟨x, hx, o, h⟩; exact ⟨x, hx, o + 1970, h⟩
  · rintro ⟨x, hx, y, h⟩
    exact ⟨x, hx, y - 1970, by rw [show y - 1970 + 1970 = y by omega]; exact h⟩

end TB
