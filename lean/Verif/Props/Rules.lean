import Verif.Model.Rules
import Verif.Spec.Rules
import Verif.Lemmas.Candidates
import Verif.Lemmas.Regular2
import Verif.Lemmas.Easter
import Verif.Props.Continue
import Verif.Examples.Boards
/-! Property C96: the rules of markers given by their names. -/
namespace TB
open TB.Ex
variable {L : Type}

/-- **C96.** The four names; any other string raises KeyError. The default is 'from_start_of_each'. -/
theorem C96_names (each : Freq) (ats : List Kwargs) (how : String) :
    (MarkerObj.create each ats how = .error .keyError ↔
      how ∉ ["from_start_of_each", "nth_weekday_of_month", "from_easter_western", "from_easter_orthodox"]) ∧
    (∀ e, MarkerObj.create each ats how = .error e → e = .keyError) ∧
    (∀ m, MarkerObj.create each ats how = .ok m → m.each = each ∧ m.ats = ats ∧ m.how.text = how) ∧
    MarkerObj.create each ats = MarkerObj.create each ats "from_start_of_each" := by
  unfold MarkerObj.create HowName.ofText
  by_cases h1 : how = "from_start_of_each"
  · subst h1; simp [How.text, HowName.text]
  by_cases h2 : how = "nth_weekday_of_month"
  · subst h2; simp [How.text, HowName.text]
  by_cases h3 : how = "from_easter_western"
  · subst h3; simp [How.text, HowName.text]
  by_cases h4 : how = "from_easter_orthodox"
  · subst h4; simp [How.text, HowName.text]
  simp [h1, h2, h3, h4]

/-- The candidates of a list of rules. -/
theorem collectAts_map {pi : Frame} {bu : Freq} {α : Type} {g : α → Frame → Freq → Except Err (List Time)} {P : α → Time → Prop} :
    ∀ {xs : List α}, (∀ x ∈ xs, ∃ ts, g x pi bu = .ok ts ∧ ∀ t, t ∈ ts ↔ P x t) →
    ∃ cand, collectAts pi bu (xs.map g) = .ok cand ∧ ∀ t, t ∈ cand ↔ ∃ x ∈ xs, P x t := by
  intro xs
  induction xs with
  | nil => intro _; exact ⟨[], rfl, by simp⟩
  | cons x xs ih =>
    intro h
    obtain ⟨ts, h1, h2⟩ := h x (by simp)
    obtain ⟨cand, h3, h4⟩ := ih (fun y hy => h y (by simp [hy]))
    refine ⟨ts ++ cand, by simp only [List.map_cons, collectAts, h1, h3, Bind.bind, Except.bind]; rfl, ?_⟩
    intro t
    rw [List.mem_append, h2, h4]
    simp only [List.mem_cons, exists_eq_or_imp]

theorem Period.endTime_unit {each : Freq} (hm : each.mult = 1) (o : Int) : (Period.mk each o).endTime = each.base.startOf (o + 1) - 1 := by
  unfold Period.endTime
  simp only [hm, Int.natCast_one]

theorem near_left {each : Freq} (hm : each.mult = 1) {o : Int} {t : Time} : t ≤ (Period.mk each o).endTime ↔ each.base.ordOf t ≤ o := by
  rw [Period.endTime_unit hm]
  have := each.base.startOf_le_iff (o := o + 1) (t := t)
  omega

theorem near_right {each : Freq} {o : Int} {t : Time} : (Period.mk each o).startTime ≤ t ↔ o ≤ each.base.ordOf t := each.base.startOf_le_iff o t

/-- **C96**, 'from_start_of_each': a workshift starts with the base unit which contains the point at the given offset from the start of a
period, unless the point is beyond the end of the period. -/
theorem C96_from_start_of_each {a : Args L} {heap : Heap L} {ls : List L} {f : Frame} {each : Freq} {offs : List Offset} {m : MarkerObj}
    (hk : MarkerObj.create each (offs.map (fun o => .offset (some o))) "from_start_of_each" = .ok m)
    (ha : a.Labels m.marker ls) (hf : Frame.new a.freq a.start a.stop = .ok f) (hc : checkGroupbyFreq a.freq each = true)
    (hm : each.mult = 1) (hne : offs ≠ []) (hpos : ∀ o ∈ offs, o.Nonneg) :
    ∃ tb, Timeboard.new a heap = .ok (tb, heap) ∧
      tb.StartsAt (fun t => ∃ off ∈ offs, ∃ p : Period, p.freq = each ∧ addOffset p.startTime (some off) ≤ p.endTime ∧
        t = snap a.freq (addOffset p.startTime (some off))) := by
  have e : m.marker = offsetMarker each offs := by
    have : m = { each, ats := offs.map (fun o => .offset (some o)), how := .named .fromStartOfEach } := by
      have := hk; unfold MarkerObj.create HowName.ofText at this; simpa using this.symm
    subst this
    unfold MarkerObj.marker offsetMarker
    simp only [List.map_map]
    rfl
  rw [e] at ha
  obtain ⟨ha1, ha2, ha3, ha4⟩ := ha
  obtain ⟨hr, hmk⟩ := C75_offset_marks (bu := a.freq) hc hm hne hpos
  obtain ⟨tb, h1, _, h3, _⟩ := C75_marked_workshifts (heap := heap) ha1 ha2 ha3 ha4 hf hc hr
  refine ⟨tb, h1, fun t => ?_⟩
  rw [h3, hmk]

/-- **C96**, 'nth_weekday_of_month', as the code does it: a workshift starts on the shifted day for each period up to `getFreqDelta`
away from the timeboard, also when the shift leads out of the period. -/
theorem C96_weekdays_as_coded {a : Args L} {heap : Heap L} {ls : List L} {f : Frame} {each : Freq} {args : List (Int × Int × Int × Option Int)} {m : MarkerObj}
    (hk : MarkerObj.create each (args.map (fun x => .weekday x.1 x.2.1 x.2.2.1 x.2.2.2)) "nth_weekday_of_month" = .ok m)
    (ha : a.Labels m.marker ls) (hf : Frame.new a.freq a.start a.stop = .ok f) (hc : checkGroupbyFreq a.freq each = true)
    (hm : each.mult = 1) (hmon : each.base.Monthly) (hd : a.freq.Daily) (hne : args ≠ []) (hargs : ∀ x ∈ args, NthArgs x.1 x.2.1 x.2.2.1) :
    ∃ tb, Timeboard.new a heap = .ok (tb, heap) ∧
      tb.StartsAt (fun t => ∃ x ∈ args, ∃ p : Period, p.freq = each ∧
        tb.startTime - getFreqDelta each ≤ p.endTime ∧ p.startTime ≤ tb.endTime + getFreqDelta each ∧
        ∃ d, NthWeekdayIn p x.1 x.2.1 x.2.2.1 d ∧ t = (d + x.2.2.2.getD 0) * nsDay) := by
  have hn := Frame.new_valid hf
  unfold Frame.Valid at hn
  have e : m.marker = ⟨each, args.map (fun x => nthWeekdayOfMonth x.1 x.2.1 x.2.2.1 x.2.2.2)⟩ := by
    have : m = { each, ats := args.map (fun x => .weekday x.1 x.2.1 x.2.2.1 x.2.2.2), how := .named .nthWeekdayOfMonth } := by
      have := hk; unfold MarkerObj.create HowName.ofText at this; simpa using this.symm
    subst this
    unfold MarkerObj.marker
    simp only [List.map_map]
    rfl
  rw [e] at ha
  obtain ⟨ha1, ha2, ha3, ha4⟩ := ha
  have hab := Frame.unitStart_le_unitEnd' (f := f) (show (0 : Int) ≤ (f.n : Int) - 1 by omega)
  obtain ⟨pi, hpi, hpf, hp0, _, _, hpr, hps, hpe⟩ := stencil_envelope hm hab
  obtain ⟨cand, hcand, hmem⟩ := collectAts_map (pi := pi) (bu := a.freq) (xs := args) (g := fun x => nthWeekdayOfMonth x.1 x.2.1 x.2.2.1 x.2.2.2)
    (P := fun x t => ∃ i : Nat, i < pi.n ∧ ∃ k d, k = monthOf (dayOf (pi.unitStart i)) + (x.1 - 1) ∧
        monthStart k * nsDay ≤ pi.unitEnd i ∧ IsNthWeekday k (x.2.2.1 - 1) x.2.1 d ∧ t = (d + x.2.2.2.getD 0) * nsDay)
    (by
      intro x hx
      obtain ⟨ts, g1, _, g2⟩ := C49_nth_weekday x.1 x.2.1 x.2.2.1 x.2.2.2 pi a.freq (hargs x hx) (by rw [hpf]; exact hmon)
      exact ⟨ts, g1, g2⟩)
  obtain ⟨hu, _⟩ := checkGroupby_unit hc hm
  obtain ⟨tb, h1, h2, h3, _⟩ := Timeboard.candidates_aligned (heap := heap) (pi := pi) ha1 ha2 ha3 ha4 hf hc (by simpa using hne) hpi hcand hu (by
    intro t ht
    obtain ⟨x, hx, i, hi, k, d, _, _, _, rfl⟩ := (hmem t).1 ht
    exact (hd.snap_midnight _).symm)
  refine ⟨tb, h1, fun t => ?_⟩
  have hst : tb.startTime = f.unitStart 0 := by unfold Timeboard.startTime Frame.startTime; rw [h2]
  have hen : tb.endTime = f.unitEnd ((f.n : Int) - 1) := by unfold Timeboard.endTime Frame.endTime; rw [h2]
  rw [h3, hmem]
  refine or_congr Iff.rfl (and_congr ?_ Iff.rfl)
  refine exists_congr (fun x => and_congr Iff.rfl ?_)
  constructor
  · rintro ⟨i, hi, k, d, rfl, g1, g2, g3⟩
    rw [hps] at g1 g2
    rw [hpe] at g1
    refine ⟨⟨each, pi.o0 + i⟩, rfl, ?_, ?_, d, ⟨g2, ?_⟩, g3⟩
    · rw [near_left hm, hst, ← hp0]; omega
    · rw [near_right, hen]; omega
    · rw [Period.endTime_unit hm]; exact g1
  · rintro ⟨⟨fr, o⟩, hfr, g1, g2, d, ⟨g3, g4⟩, g5⟩
    have hfr : fr = each := hfr
    subst hfr
    rw [near_left hm, hst, ← hp0] at g1
    rw [near_right, hen] at g2
    rw [Period.endTime_unit hm] at g4
    have eo : pi.o0 + (((o - pi.o0).toNat : Nat) : Int) = o := by omega
    refine ⟨(o - pi.o0).toNat, by omega, _, d, rfl, ?_, ?_, g5⟩
    · rw [hps, hpe, eo]; exact g4
    · rw [hps, eo]; exact g3

/-- The day of an n-th weekday is within the period. -/
theorem NthWeekdayIn.within {p : Period} {month week wday d : Int} (hm : p.freq.mult = 1) (hmon : p.freq.base.Monthly) (h1 : 1 ≤ month)
    (h : NthWeekdayIn p month week wday d) : p.startTime ≤ d * nsDay ∧ d * nsDay ≤ p.endTime := by
  obtain ⟨fr, o⟩ := p
  obtain ⟨h4, h3⟩ := h
  simp only at hm hmon
  have hus : ∀ i, (Frame.mk fr o 1).unitStart i = fr.base.startOf (o + i) := by
    intro i; unfold Frame.unitStart Frame.ord; rw [hm]; congr 1; simp
  obtain ⟨c, P, hP, hu⟩ := (Frame.mk fr o 1).monthly hmon
  have e0 : fr.base.startOf o = monthStart c * nsDay := by
    have := hu 0; rw [hus] at this; simpa using this
  have e1 : fr.base.startOf (o + 1) = monthStart (c + P) * nsDay := by
    have := hu 1; rw [hus] at this; simpa using this
  rw [Period.endTime_unit hm] at h3 ⊢
  unfold Period.startTime at h3 h4 ⊢
  simp only at h3 h4 ⊢
  rw [e0, dayOf_mul, monthOf_monthStart] at h3 h4
  rw [e0, e1]
  rw [e1] at h3
  have b1 := h4.1
  have b2 := h4.2.1
  have hlt : c + (month - 1) < c + P := by
    rcases Int.lt_or_le (c + (month - 1)) (c + P) with h | h
    · exact h
    · have := Int.mul_le_mul_of_nonneg_right (monthStart_le h) (show 0 ≤ nsDay by decide)
      omega
  have c1 := monthStart_le (show c ≤ c + (month - 1) by omega)
  have c2 := monthStart_le (show c + (month - 1) + 1 ≤ c + P by omega)
  have d1 := Int.mul_le_mul_of_nonneg_right (show monthStart c ≤ d by omega) (show 0 ≤ nsDay by decide)
  have d2 := Int.mul_lt_mul_of_pos_right (show d < monthStart (c + P) by omega) nsDay_pos
  omega

/-- **C96**, 'nth_weekday_of_month', as documented: a workshift starts on the (shifted) day found in a period.  Missing from the full
statement: a shifted day outside the period in which it was sought is documented to be ignored, but it is not (`C96_negation`). -/
theorem C96_nth_weekday_partial {a : Args L} {heap : Heap L} {ls : List L} {f : Frame} {each : Freq} {args : List (Int × Int × Int × Option Int)} {m : MarkerObj}
    (hk : MarkerObj.create each (args.map (fun x => .weekday x.1 x.2.1 x.2.2.1 x.2.2.2)) "nth_weekday_of_month" = .ok m)
    (ha : a.Labels m.marker ls) (hf : Frame.new a.freq a.start a.stop = .ok f) (hc : checkGroupbyFreq a.freq each = true)
    (hm : each.mult = 1) (hmon : each.base.Monthly) (hd : a.freq.Daily) (hne : args ≠ []) (hargs : ∀ x ∈ args, NthArgs x.1 x.2.1 x.2.2.1)
    (hstay : ∀ x ∈ args, ShiftStays each x) :
    ∃ tb, Timeboard.new a heap = .ok (tb, heap) ∧
      tb.StartsAt (fun t => ∃ x ∈ args, ∃ p : Period, p.freq = each ∧ p.startTime ≤ t ∧ t ≤ p.endTime ∧
        ∃ d, NthWeekdayIn p x.1 x.2.1 x.2.2.1 d ∧ t = (d + x.2.2.2.getD 0) * nsDay) := by
  obtain ⟨tb, h1, h2⟩ := C96_weekdays_as_coded (heap := heap) hk ha hf hc hm hmon hd hne hargs
  have hδ := getFreqDelta_pos each
  refine ⟨tb, h1, fun t => ?_⟩
  rw [h2 t]
  refine or_congr Iff.rfl ⟨?_, ?_⟩
  · rintro ⟨⟨x, hx, p, hp, _, _, d, g1, g2⟩, g3⟩
    have := hstay x hx p hp d g1
    rw [← g2] at this
    exact ⟨⟨x, hx, p, hp, this.1, this.2, d, g1, g2⟩, g3⟩
  · rintro ⟨⟨x, hx, p, hp, k1, k2, d, g1, g2⟩, g3, g4⟩
    exact ⟨⟨x, hx, p, hp, by omega, by omega, d, g1, g2⟩, g3, g4⟩

/-- **C96**, which shifts stay in the period: none at all; up to four weeks, from February to November, in years. -/
theorem C96_which_shifts_stay (each : Freq) (hm : each.mult = 1) (hmon : each.base.Monthly) (month week wday : Int) (h1 : 1 ≤ month) :
    ShiftStays each (month, week, wday, none) ∧ ShiftStays each (month, week, wday, some 0) ∧
    ∀ sh, each = fA → 2 ≤ month → month ≤ 11 → -28 ≤ sh → sh ≤ 28 → ShiftStays each (month, week, wday, some sh) := by
  refine ⟨?_, ?_, ?_⟩
  · intro p hp d h
    simp only [Option.getD_none, Int.add_zero]
    exact h.within (by rw [hp]; exact hm) (by rw [hp]; exact hmon) h1
  · intro p hp d h
    simp only [Option.getD_some, Int.add_zero]
    exact h.within (by rw [hp]; exact hm) (by rw [hp]; exact hmon) h1
  · intro sh he m1 m2 s1 s2 p hp d h
    subst he
    obtain ⟨fr, o⟩ := p
    have hp : fr = fA := hp
    subst hp
    have hst : ∀ o, fA.base.startOf o = monthStart (12 * o) * nsDay := by
      intro o
      have e : fA.base.startOf o = date (o + 1970) 1 1 := by
        have := years_start (o + 1970) 1 0
        unfold years Frame.unitStart Frame.ord at this
        simp only [Int.mul_zero, Int.add_zero] at this
        rw [show o + 1970 - 1970 = o by omega] at this
        exact this
      rw [e]
      unfold date dayNum
      rw [show 12 * (o + 1970 - 1970) + (1 - 1) = 12 * o by omega, show ∀ x : Int, x + (1 - 1) = x by intro x; omega]
    obtain ⟨h4, h3⟩ := h
    rw [Period.endTime_unit hm] at h3 ⊢
    unfold Period.startTime at h3 h4 ⊢
    simp only [hst, dayOf_mul, monthOf_monthStart, Option.getD_some] at h3 h4 ⊢
    have b1 := h4.1
    have b2 := h4.2.1
    have c1 := monthStart_le (show 12 * o ≤ 12 * o + (month - 1) - 1 by omega)
    have c2 := monthStart_le (show 12 * o + (month - 1) + 1 + 1 ≤ 12 * (o + 1) by omega)
    have c3 := monthStart_step (12 * o + (month - 1) - 1)
    have c4 := monthStart_step (12 * o + (month - 1) + 1)
    rw [show 12 * o + (month - 1) - 1 + 1 = 12 * o + (month - 1) by omega] at c3
    have d1 := Int.mul_le_mul_of_nonneg_right (show monthStart (12 * o) ≤ d + sh by omega) (show 0 ≤ nsDay by decide)
    have d2 := Int.mul_lt_mul_of_pos_right (show d + sh < monthStart (12 * (o + 1)) by omega) nsDay_pos
    omega

/-- The candidates of Easter rules. -/
theorem Args.Labels.easter {a : Args L} {heap : Heap L} {ls : List L} {f : Frame} {orthodox : Bool} {args : List (Option Int × Option Offset)}
    (ha : a.Labels ⟨fA, args.map (fun x => fromEaster orthodox x.1 x.2)⟩ ls) (hf : Frame.new a.freq a.start a.stop = .ok f)
    (hc : checkGroupbyFreq a.freq fA = true) (hne : args ≠ []) (hargs : ∀ x ∈ args, x ≠ (none, none))
    (hplain : ∀ x ∈ args, ∀ o, x.2 = some o → o.years = 0 ∧ o.months = 0)
    (hor : orthodox = true → date 1585 1 1 ≤ f.startTime ∧ f.endTime < date 4098 1 1) :
    ∃ tb, Timeboard.new a heap = .ok (tb, heap) ∧ tb.timeline.frame = f ∧
      tb.StartsAt (fun t => ∃ x ∈ args, ∃ y, date y 1 1 ≤ easterDay orthodox y * nsDay + plainAmount x.1 (x.2.getD {}) ∧
        easterDay orthodox y * nsDay + plainAmount x.1 (x.2.getD {}) < date (y + 1) 1 1 ∧
        t = snap a.freq (easterDay orthodox y * nsDay + plainAmount x.1 (x.2.getD {}))) := by
  have hn := Frame.new_valid hf
  unfold Frame.Valid at hn
  obtain ⟨ha1, ha2, ha3, ha4⟩ := ha
  have hst : ∀ o, fA.base.startOf o = date (o + 1970) 1 1 := by
    intro o
    have := years_start (o + 1970) 1 0
    unfold years Frame.unitStart Frame.ord at this
    simp only [Int.mul_zero, Int.add_zero] at this
    rw [show o + 1970 - 1970 = o by omega] at this
    exact this
  have hm : fA.mult = 1 := rfl
  have hab := Frame.unitStart_le_unitEnd' (f := f) (show (0 : Int) ≤ (f.n : Int) - 1 by omega)
  obtain ⟨pi, hpi, hpf, hp0, _, _, hpr, hps, hpe⟩ := stencil_envelope hm hab
  have epi : pi = years (pi.o0 + 1970) pi.n := by
    obtain ⟨fq, o0, n⟩ := pi
    simp only at hpf
    subst hpf
    unfold years
    congr 1
    simp only; omega
  obtain ⟨hu, hal⟩ := checkGroupby_unit hc hm
  have hor' : orthodox = true → 1583 ≤ pi.o0 + 1970 ∧ pi.o0 + 1970 + (pi.n : Int) ≤ 4100 := by
    intro h
    obtain ⟨r1, r2⟩ := hor h
    have k1 := (fA.base.startOf_le_iff (1583 - 1970) (f.unitStart 0 - getFreqDelta fA)).1 (by
      rw [hst]
      have : date (1583 - 1970 + 1970) 1 1 + getFreqDelta fA ≤ date 1585 1 1 := by decide +kernel
      have : date 1585 1 1 ≤ f.unitStart 0 := r1
      omega)
    have k2 : ¬ ((4100 - 1970 : Int) ≤ fA.base.ordOf (f.unitEnd ((f.n : Int) - 1) + getFreqDelta fA)) := by
      rw [← Base.startOf_le_iff, hst]
      have : date 4098 1 1 + getFreqDelta fA ≤ date (4100 - 1970 + 1970) 1 1 := by decide +kernel
      have : f.unitEnd ((f.n : Int) - 1) < date 4098 1 1 := r2
      omega
    omega
  have hamt : ∀ x ∈ args, ∀ u, addOffset u (withShift x.2 x.1) = u + plainAmount x.1 (x.2.getD {}) := by
    rintro ⟨sh, o⟩ hx u
    have hx0 := hargs _ hx
    have hpl := hplain _ hx
    unfold plainAmount
    cases sh with
    | none =>
      cases o with
      | none => exact absurd rfl hx0
      | some o =>
        obtain ⟨p1, p2⟩ := hpl o rfl
        simp only [withShift, addOffset, p1, p2, Int.mul_zero, Int.add_zero, addMonths_zero, Option.getD_some, Option.getD_none, Offset.fixed, nsDay, nsHour, nsMin, nsSec]
        omega
    | some s =>
      cases o with
      | none =>
        simp only [withShift, addOffset, Int.mul_zero, Int.add_zero, addMonths_zero, Option.getD_some, Option.getD_none, Offset.fixed, nsDay, nsHour, nsMin, nsSec]
        omega
      | some o =>
        obtain ⟨p1, p2⟩ := hpl o rfl
        simp only [withShift, addOffset, p1, p2, Int.mul_zero, Int.add_zero, addMonths_zero, Option.getD_some, Offset.fixed, nsDay, nsHour, nsMin, nsSec]
        omega
  obtain ⟨cand, hcand, hmem⟩ := collectAts_map (pi := pi) (bu := a.freq) (xs := args) (g := fun x => fromEaster orthodox x.1 x.2)
    (P := fun x t => ∃ y, pi.o0 + 1970 ≤ y ∧ y < pi.o0 + 1970 + pi.n ∧
      date y 1 1 ≤ easterDay orthodox y * nsDay + plainAmount x.1 (x.2.getD {}) ∧
        easterDay orthodox y * nsDay + plainAmount x.1 (x.2.getD {}) < date (y + 1) 1 1 ∧
        t = snap a.freq (easterDay orthodox y * nsDay + plainAmount x.1 (x.2.getD {})))
    (by
      intro x hx
      obtain ⟨ts, g1, g2⟩ := fromEaster_years orthodox x.1 x.2 (pi.o0 + 1970) pi.n a.freq hor'
      refine ⟨ts, by rw [epi]; exact g1, fun t => ?_⟩
      rw [g2]
      simp only [hamt x hx]
      refine exists_congr (fun y => ?_)
      generalize plainAmount x.1 (x.2.getD {}) = A
      constructor
      · rintro ⟨k1, k2, rfl, k3⟩
        have he := easter_in_year (y := y) (orthodox := orthodox) (fun h => by have := hor' h; omega)
        have q1 := snap_le_self a.freq (easterDay orthodox y * nsDay + A)
        have q2 := snap_within (bu := a.freq) (each := fA) hal (o := y + 1 - 1970) (t := easterDay orthodox y * nsDay + A)
        rw [hst, show y + 1 - 1970 + 1970 = y + 1 by omega] at q2
        refine ⟨k1, k2, ?_, ?_, rfl⟩
        · split at k3 <;> omega
        · split at k3
          · rcases Int.lt_or_le (easterDay orthodox y * nsDay + A) (date (y + 1) 1 1) with h | h
            · exact h
            · have := q2 h; omega
          · omega
      · rintro ⟨k1, k2, k3, k4, rfl⟩
        have q1 := snap_le_self a.freq (easterDay orthodox y * nsDay + A)
        have q2 := snap_within (bu := a.freq) (each := fA) hal (o := y - 1970) (t := easterDay orthodox y * nsDay + A)
        rw [hst, show y - 1970 + 1970 = y by omega] at q2
        refine ⟨k1, k2, rfl, ?_⟩
        split
        · omega
        · exact q2 k3)
  obtain ⟨tb, h1, h2, h3, _⟩ := Timeboard.candidates_aligned (heap := heap) (pi := pi) ha1 ha2 ha3 ha4 hf hc (by simpa using hne) hpi hcand hu (by
    intro t ht
    obtain ⟨x, hx, y, _, _, _, _, rfl⟩ := (hmem t).1 ht
    exact (snap_snap _ _).symm)
  refine ⟨tb, h1, h2, fun t => ?_⟩
  have hst' : tb.startTime = f.unitStart 0 := by unfold Timeboard.startTime Frame.startTime; rw [h2]
  have hen : tb.endTime = f.unitEnd ((f.n : Int) - 1) := by unfold Timeboard.endTime Frame.endTime; rw [h2]
  have hδ := getFreqDelta_pos fA
  rw [h3, hmem]
  refine or_congr Iff.rfl ⟨?_, ?_⟩
  · rintro ⟨⟨x, hx, y, _, _, k⟩, k'⟩
    exact ⟨⟨x, hx, y, k⟩, k'⟩
  · rintro ⟨⟨x, hx, y, k1, k2, k3⟩, k4, k5⟩
    refine ⟨⟨x, hx, y, ?_, ?_, k1, k2, k3⟩, k4, k5⟩
    · have q1 := snap_le_self a.freq (easterDay orthodox y * nsDay + plainAmount x.1 (x.2.getD {}))
      have : pi.o0 ≤ y - 1970 := by
        rw [hp0]
        have := (fA.base.startOf_le_iff (y - 1970 + 1) (f.unitStart 0 - getFreqDelta fA))
        rw [hst, show y - 1970 + 1 + 1970 = y + 1 by omega] at this
        omega
      omega
    · have q2 := snap_within (bu := a.freq) (each := fA) hal (o := y - 1970) (t := easterDay orthodox y * nsDay + plainAmount x.1 (x.2.getD {}))
      rw [hst, show y - 1970 + 1970 = y by omega] at q2
      have := q2 k1
      have := (fA.base.startOf_le_iff (y - 1970) (f.unitEnd ((f.n : Int) - 1) + getFreqDelta fA)).1 (by
        rw [hst, show y - 1970 + 1970 = y by omega]; omega)
      omega

/-- **C96**, 'from_easter_western': a workshift starts with the base unit which contains the point at the given distance from Easter,
unless the point is outside the year.  (With arguments: see C62 for their absence; offsets without years and months.) -/
theorem C96_from_easter_western {a : Args L} {heap : Heap L} {ls : List L} {f : Frame} {args : List (Option Int × Option Offset)} {m : MarkerObj}
    (hk : MarkerObj.create fA (args.map (fun x => .easter x.1 x.2)) "from_easter_western" = .ok m)
    (ha : a.Labels m.marker ls) (hf : Frame.new a.freq a.start a.stop = .ok f) (hc : checkGroupbyFreq a.freq fA = true)
    (hne : args ≠ []) (hargs : ∀ x ∈ args, x ≠ (none, none)) (hplain : ∀ x ∈ args, ∀ o, x.2 = some o → o.years = 0 ∧ o.months = 0) :
    ∃ tb, Timeboard.new a heap = .ok (tb, heap) ∧
      tb.StartsAt (fun t => ∃ x ∈ args, ∃ y, date y 1 1 ≤ westernEaster y * nsDay + plainAmount x.1 (x.2.getD {}) ∧
        westernEaster y * nsDay + plainAmount x.1 (x.2.getD {}) < date (y + 1) 1 1 ∧
        t = snap a.freq (westernEaster y * nsDay + plainAmount x.1 (x.2.getD {}))) := by
  have e : m.marker = ⟨fA, args.map (fun x => fromEaster false x.1 x.2)⟩ := by
    have : m = { each := fA, ats := args.map (fun x => .easter x.1 x.2), how := .named .fromEasterWestern } := by
      have := hk; unfold MarkerObj.create HowName.ofText at this; simpa using this.symm
    subst this
    unfold MarkerObj.marker
    simp only [List.map_map]
    rfl
  rw [e] at ha
  obtain ⟨tb, h1, hfr, h2⟩ := ha.easter (heap := heap) hf hc hne hargs hplain (by simp)
  refine ⟨tb, h1, fun t => ?_⟩
  rw [h2 t]
  unfold westernEaster
  simp only [easterDay_western_eq]

/-- **C96**, 'from_easter_orthodox', for timeboards of years from 1585 to 4097. -/
theorem C96_from_easter_orthodox {a : Args L} {heap : Heap L} {ls : List L} {f : Frame} {args : List (Option Int × Option Offset)} {m : MarkerObj}
    (hk : MarkerObj.create fA (args.map (fun x => .easter x.1 x.2)) "from_easter_orthodox" = .ok m)
    (ha : a.Labels m.marker ls) (hf : Frame.new a.freq a.start a.stop = .ok f) (hc : checkGroupbyFreq a.freq fA = true)
    (hne : args ≠ []) (hargs : ∀ x ∈ args, x ≠ (none, none)) (hplain : ∀ x ∈ args, ∀ o, x.2 = some o → o.years = 0 ∧ o.months = 0)
    (hor : date 1585 1 1 ≤ f.startTime ∧ f.endTime < date 4098 1 1) :
    ∃ tb, Timeboard.new a heap = .ok (tb, heap) ∧
      tb.StartsAt (fun t => ∃ x ∈ args, ∃ y, date y 1 1 ≤ orthodoxEaster y * nsDay + plainAmount x.1 (x.2.getD {}) ∧
        orthodoxEaster y * nsDay + plainAmount x.1 (x.2.getD {}) < date (y + 1) 1 1 ∧
        t = snap a.freq (orthodoxEaster y * nsDay + plainAmount x.1 (x.2.getD {}))) := by
  have e : m.marker = ⟨fA, args.map (fun x => fromEaster true x.1 x.2)⟩ := by
    have : m = { each := fA, ats := args.map (fun x => .easter x.1 x.2), how := .named .fromEasterOrthodox } := by
      have := hk; unfold MarkerObj.create HowName.ofText at this; simpa using this.symm
    subst this
    unfold MarkerObj.marker
    simp only [List.map_map]
    rfl
  rw [e] at ha
  obtain ⟨tb, h1, hfr, h2⟩ := ha.easter (heap := heap) hf hc hne hargs hplain (fun _ => hor)
  refine ⟨tb, h1, fun t => ?_⟩
  rw [h2 t]
  have hst' : tb.startTime = f.startTime := by unfold Timeboard.startTime; rw [hfr]
  have hen' : tb.endTime = f.endTime := by unfold Timeboard.endTime; rw [hfr]
  obtain ⟨_, hal⟩ := checkGroupby_unit hc (show fA.mult = 1 from rfl)
  have hst : ∀ y, fA.base.startOf (y - 1970) = date y 1 1 := by
    intro y
    have := years_start y 1 0
    unfold years Frame.unitStart Frame.ord at this
    simp only [Int.mul_zero, Int.add_zero] at this
    exact this
  have key : ∀ y u, date y 1 1 ≤ u → u < date (y + 1) 1 1 → tb.startTime < snap a.freq u → snap a.freq u ≤ tb.endTime →
      1583 ≤ y ∧ y ≤ 4099 := by
    intro y u k1 k2 k3 k4
    have q1 := snap_le_self a.freq u
    have q2 := snap_within (bu := a.freq) (each := fA) hal (o := y - 1970) (t := u)
    rw [hst] at q2
    have q2 := q2 k1
    have l1 := fA.base.startOf_le_startOf (y + 1 - 1970) (1585 - 1970)
    have l2 := fA.base.startOf_le_startOf (4098 - 1970) (y - 1970)
    rw [hst, hst] at l1 l2
    omega
  refine or_congr Iff.rfl ⟨?_, ?_⟩
  · rintro ⟨⟨x, hx, y, k1, k2, rfl⟩, k3, k4⟩
    have ky := key y _ k1 k2 k3 k4
    have ee : easterDay true y = orthodoxEaster y := easterDay_orthodox_eq y ky.1 ky.2
    exact ⟨⟨x, hx, y, by rw [← ee]; exact k1, by rw [← ee]; exact k2, by rw [← ee]⟩, k3, k4⟩
  · rintro ⟨⟨x, hx, y, k1, k2, rfl⟩, k3, k4⟩
    have ky := key y _ k1 k2 k3 k4
    have ee : easterDay true y = orthodoxEaster y := easterDay_orthodox_eq y ky.1 ky.2
    exact ⟨⟨x, hx, y, by rw [ee]; exact k1, by rw [ee]; exact k2, by rw [ee]⟩, k3, k4⟩

/-- **C96**, a dictionary without arguments: the point is one day after the start of the period, or after Easter. -/
theorem C96_no_arguments (pi : Frame) (bu : Freq) :
    HowName.fn .fromStartOfEach (.offset none) pi bu = HowName.fn .fromStartOfEach (.offset (some { days := 1 })) pi bu ∧
    HowName.fn .fromEasterWestern (.easter none none) pi bu = HowName.fn .fromEasterWestern (.easter (some 1) none) pi bu ∧
    HowName.fn .fromEasterOrthodox (.easter none none) pi bu = HowName.fn .fromEasterOrthodox (.easter (some 1) none) pi bu := by
  have e : ∀ t, addOffset t none = addOffset t (some { days := 1 }) := by
    intro t; rw [addOffset_days]; simp [addOffset]
  refine ⟨?_, ?_, ?_⟩
  · simp only [HowName.fn, fromStartOfEach, e]
  · simp only [HowName.fn, fromEaster, withShift, e, Option.getD_none]
    rfl
  · simp only [HowName.fn, fromEaster, withShift, e, Option.getD_none]
    rfl

/-- **C96**, errors: the timeboard is refused with the error of the first dictionary of `at` for which the rule raises one. -/
theorem C96_rule_raises {a : Args L} {heap : Heap L} {ls : List L} {f pi : Frame} {m : MarkerObj} {pre post : List Kwargs} {k : Kwargs} {e : Err}
    (hm : m.ats = pre ++ k :: post) (ha : a.Labels m.marker ls) (hf : Frame.new a.freq a.start a.stop = .ok f)
    (hc : checkGroupbyFreq a.freq m.each = true)
    (hpi : Frame.new m.each (f.startTime - getFreqDelta m.each) (f.endTime + getFreqDelta m.each) = .ok pi)
    (hpre : ∀ x ∈ pre, ∃ ts, m.how.fn x pi a.freq = .ok ts) (hk : m.how.fn k pi a.freq = .error e) :
    Timeboard.new a heap = .error e := by
  have hn := Frame.new_valid hf
  unfold Frame.Valid at hn
  obtain ⟨ha1, ha2, ha3, ha4⟩ := ha
  have hff : f.freq = a.freq := by rw [(Frame.new_ok_iff.1 hf).2]
  have hcol : collectAts pi a.freq m.marker.ats = .error e := by
    unfold MarkerObj.marker
    simp only [hm]
    clear hm
    induction pre with
    | nil => simp only [List.nil_append, List.map_cons, collectAts, hk, Bind.bind, Except.bind]
    | cons x xs ih =>
      obtain ⟨ts, hx⟩ := hpre x (by simp)
      simp only [List.cons_append, List.map_cons, collectAts, hx, Bind.bind, Except.bind]
      rw [ih (fun y hy => hpre y (by simp [hy]))]
  have hp := Frame.partition_rule_error (f := f) (s := { first := 0, last := (f.n : Int) - 1 }) (m := m.marker) (pi := pi) (e := e)
    (by unfold MarkerObj.marker; rw [hm]; simp) (by rw [hff]; exact hc) (by simp) (by simp only; omega) (by simp only; omega) hpi (by rw [hff]; exact hcol)
  refine Timeboard.new_of_run_error (org := .organizer (.marker m.marker) (ls.map .label)) (by rw [ha2]; rfl) ha4 hf ?_
  simp only [Layout.run, Frame.cutSpan, hp]

/-- **C96**, keyword arguments of another rule raise TypeError, an impossible month, week or weekday AssertionError. -/
theorem C96_wrong_arguments {a : Args L} {heap : Heap L} {ls : List L} {f : Frame} {m : MarkerObj} {each : Freq} {k : Kwargs} {post : List Kwargs}
    {how : String} (hm : MarkerObj.create each (k :: post) how = .ok m) (ha : a.Labels m.marker ls) (hf : Frame.new a.freq a.start a.stop = .ok f)
    (hc : checkGroupbyFreq a.freq each = true) :
    (Mismatch how k → Timeboard.new a heap = .error .typeError) ∧
    (∀ month week wday shift, k = .weekday month week wday shift → how = "nth_weekday_of_month" → ¬ NthArgs month week wday →
      Timeboard.new a heap = .error .assertionError) := by
  have hn := Frame.new_valid hf
  unfold Frame.Valid at hn
  have hmm : m.each = each ∧ m.ats = k :: post ∧ m.how.text = how := (C96_names each (k :: post) how).2.2.1 m hm
  obtain ⟨pi, hpi, _⟩ := stencil_exists m.each hn
  have hnm : ∃ n, m.how = .named n := by
    unfold MarkerObj.create at hm
    split at hm
    · cases hm; exact ⟨_, rfl⟩
    · cases hm
  obtain ⟨n, hnm⟩ := hnm
  have htx : n.text = how := by have := hmm.2.2; rw [hnm] at this; exact this
  have key : ∀ e, m.how.fn k pi a.freq = .error e → Timeboard.new a heap = .error e := fun e he =>
    C96_rule_raises (pre := []) (post := post) (k := k) (by simpa using hmm.2.1) ha hf (by rw [hmm.1]; exact hc) hpi (by simp) he
  constructor
  · intro hmis
    apply key
    rw [hnm]
    subst htx
    cases k <;> cases n <;> simp [Mismatch, HowName.text] at hmis <;> rfl
  · rintro month week wday shift rfl hh hbad
    apply key
    rw [hnm]
    subst htx
    cases n <;> simp [HowName.text] at hh
    exact nthWeekdayOfMonth_bad (nb := a.freq) hbad

/-- **C96**, a function of the user as `how`: a workshift starts with each base unit in which there is a point returned by the function for
one of the dictionaries.  (Points later than one second into the last base unit are not noticed: C04.) -/
theorem C96_own_function {a : Args L} {heap : Heap L} {ls : List L} {f pi : Frame} {each : Freq} {ats : List Kwargs} {text : String} {g : HowFn}
    (ha : a.Labels (MarkerObj.createWith each ats text g).marker ls) (hf : Frame.new a.freq a.start a.stop = .ok f)
    (hc : checkGroupbyFreq a.freq each = true) (hne : ats ≠ [])
    (hpi : Frame.new each (f.startTime - getFreqDelta each) (f.endTime + getFreqDelta each) = .ok pi)
    (points : Kwargs → List Time) (hg : ∀ k ∈ ats, g k pi a.freq = .ok (points k))
    (hlate : ∀ k ∈ ats, ∀ t ∈ points k, t ≤ f.endTime → t < f.unitStart ((f.n : Int) - 1) + nsSec) :
    ∃ tb, Timeboard.new a heap = .ok (tb, heap) ∧
      (∀ t, (∃ d l, tb.Starts t d l) ↔ ∃ i : Int, 0 ≤ i ∧ i < f.n ∧ t = f.unitStart i ∧
        (i = 0 ∨ ∃ k ∈ ats, ∃ u ∈ points k, f.unitStart i ≤ u ∧ u ≤ f.unitEnd i)) := by
  have hn := Frame.new_valid hf
  unfold Frame.Valid at hn
  obtain ⟨ha1, ha2, ha3, ha4⟩ := ha
  obtain ⟨cand, hcand, hmem⟩ := collectAts_map (pi := pi) (bu := a.freq) (xs := ats) (g := g) (P := fun k t => t ∈ points k)
    (fun k hk => ⟨points k, hg k hk, fun t => Iff.rfl⟩)
  obtain ⟨tb, h1, h2, h3, h4, _⟩ := Timeboard.candidates (heap := heap) (pi := pi) (cand := cand) ha1 ha2 ha3 ha4 hf hc
    (by simpa [MarkerObj.createWith, MarkerObj.marker] using hne) hpi hcand
  refine ⟨tb, h1, fun t => ?_⟩
  have hnot : ∀ (i : Int) (u : Time), 0 ≤ i → i < f.n → u ∈ cand → f.unitStart i ≤ u → (u < f.noticedEnd i ↔ u ≤ f.unitEnd i) := by
    intro i u i0 i1 hu hle
    have hnl := f.noticedEnd_le i
    constructor
    · intro h; omega
    · intro h
      unfold Frame.noticedEnd
      split
      · rename_i hi
        obtain ⟨k, hk, hu⟩ := (hmem u).1 hu
        have := hlate k hk u hu (by unfold Frame.endTime; rw [← hi]; exact h)
        rw [hi]; exact this
      · rw [Frame.unitEnd_eq] at h; omega
  constructor
  · intro h
    obtain ⟨i, i0, i1, rfl⟩ := h3 t h
    refine ⟨i, i0, i1, rfl, ?_⟩
    rcases (h4 i i0 i1).1 h with h | ⟨u, hu, k1, k2⟩
    · exact .inl h
    · obtain ⟨k, hk, hku⟩ := (hmem u).1 hu
      exact .inr ⟨k, hk, u, hku, k1, (hnot i u i0 i1 hu k1).1 k2⟩
  · rintro ⟨i, i0, i1, rfl, h⟩
    refine (h4 i i0 i1).2 ?_
    rcases h with h | ⟨k, hk, u, hu, k1, k2⟩
    · exact .inl h
    · have hu' := (hmem u).2 ⟨k, hk, hu⟩
      exact .inr ⟨u, hu', k1, (hnot i u i0 i1 hu' k1).2 k2⟩

/-- Timeboards of two years of days, with rules given by name. -/
def ruleArgs (each : Freq) (ats : List Kwargs) (how : String) (freq : Freq := fD) (stop : Time := date 2018 12 31) : Except Err (Args Int) := do
  let m ← MarkerObj.create each ats how
  return { freq, start := date 2017 1 1, stop, layout := .organizer (.marker m.marker) [.label 0, .label 1]
           selector := fun l => l != 0, defaultLabel := 0 }

/-- The starts of the workshifts. -/
def ruleStarts (a : Except Err (Args Int)) : Except Err (List Time) := do
  let r ← Timeboard.new (← a) heap0
  return r.1.timeline.wsIdx.map r.1.timeline.frame.unitStart

/-- Good Friday and noon of the Monday after Easter (in hours), the same days western and orthodox; the same rule with a wrong name and with a name of
another rule. -/
example : ruleStarts (ruleArgs fA [.easter (some (-2)) none, .easter none (some { days := 1, hours := 12 })] "from_easter_western" fH (date 2017 4 30)) =
      .ok [date 2017 1 1, date 2017 4 14, date 2017 4 17 + 12 * nsHour] ∧
    ruleStarts (ruleArgs fA [.easter (some (-2)) none, .easter (some 1) none] "from_easter_western") =
      .ok [date 2017 1 1, date 2017 4 14, date 2017 4 17, date 2018 3 30, date 2018 4 2] ∧
    ruleStarts (ruleArgs fA [.easter (some (-2)) none, .easter (some 1) none] "from_easter_orthodox") =
      .ok [date 2017 1 1, date 2017 4 14, date 2017 4 17, date 2018 4 6, date 2018 4 9] ∧
    ruleStarts (ruleArgs fA [.easter (some (-2)) none] "easter") = .error .keyError ∧
    ruleStarts (ruleArgs fA [.easter (some (-2)) none] "from_start_of_each") = .error .typeError ∧
    ruleStarts (ruleArgs fA [.weekday 13 1 1 none] "nth_weekday_of_month") = .error .assertionError := by decide +kernel

/-- The Friday after Thanksgiving and the last Monday of May; the second day of each year. -/
example : ruleStarts (ruleArgs fA [.weekday 11 4 4 (some 1), .weekday 5 (-1) 1 none] "nth_weekday_of_month") =
      .ok [date 2017 1 1, date 2017 5 29, date 2017 11 24, date 2018 5 28, date 2018 11 23] ∧
    ruleStarts (ruleArgs fA [.offset (some { days := 1 })] "from_start_of_each") = .ok [date 2017 1 1, date 2017 1 2, date 2018 1 2] ∧
    ruleStarts (ruleArgs fA [.offset none] "from_start_of_each") = .ok [date 2017 1 1, date 2017 1 2, date 2018 1 2] := by decide +kernel

/-- A user's function which returns noon of the third day of each period, on a board of days. -/
example : (Timeboard.new { weekArgs with start := date 2017 1 1, stop := date 2017 2 5, amendments := [], layout := .organizer (.marker
      (MarkerObj.createWith fM [.offset none] "f" (fun _ pi _ => .ok (pi.startTimes.map (fun t => t + 2 * nsDay + 12 * nsHour)))).marker) [.label (0 : Int), .label 1] } heap0).map (fun r => r.1.timeline.wsIdx) = .ok [0, 2, 33] := by decide +kernel

/-- January 2017; the day a week before the first Monday of each month. -/
def weekBefore : Args Int where
  freq := fD
  start := date 2017 1 1
  stop := date 2017 1 31
  layout := .organizer (.marker ⟨fM, [nthWeekdayOfMonth 1 1 1 (some (-7))]⟩) [.label 0, .label 1]
  selector := fun l => l != 0
  defaultLabel := 0

/-- The full statement of C96 fails: the first Monday of February 2017 was the 6th; the day a week before, 30 January, is outside the
period (February) in which it was sought, but a workshift starts there. -/
theorem C96_negation : ∃ (m : MarkerObj) (tb : Timeboard Int),
    MarkerObj.create fM [.weekday 1 1 1 (some (-7))] "nth_weekday_of_month" = .ok m ∧ weekBefore.Labels m.marker [0, 1] ∧
    Timeboard.new weekBefore heap0 = .ok (tb, heap0) ∧ (∃ d l, tb.Starts (date 2017 1 30) d l) ∧
    ¬ tb.StartsAt (fun t => ∃ p : Period, p.freq = fM ∧ p.startTime ≤ t ∧ t ≤ p.endTime ∧ ∃ d, NthWeekdayIn p 1 1 1 d ∧ t = (d + -7) * nsDay) := by
  have h0 : MarkerObj.create fM [.weekday 1 1 1 (some (-7))] "nth_weekday_of_month" =
      .ok { each := fM, ats := [.weekday 1 1 1 (some (-7))], how := .named .nthWeekdayOfMonth } := by rfl
  have hl : weekBefore.Labels (MarkerObj.marker { each := fM, ats := [.weekday 1 1 1 (some (-7))], how := .named .nthWeekdayOfMonth }) [0, 1] :=
    ⟨rfl, rfl, by simp, by decide⟩
  obtain ⟨tb, h1, h2⟩ := C96_weekdays_as_coded (heap := heap0) (a := weekBefore) (f := ⟨fD, dayNum 2017 1 1, 31⟩) (each := fM) (args := [(1, 1, 1, some (-7))])
    h0 hl (by decide +kernel) (by decide +kernel) rfl (by decide) (by unfold Freq.Daily; decide) (by simp) (by simp [NthArgs])
  have hb : tb.startTime = date 2017 1 1 ∧ tb.endTime = date 2017 2 1 - 1 := by
    have : (Timeboard.new weekBefore heap0).map (fun r => (r.1.startTime, r.1.endTime)) = .ok (date 2017 1 1, date 2017 2 1 - 1) := by decide +kernel
    rw [h1] at this
    simpa [Except.map] using this
  have hs : ∃ d l, tb.Starts (date 2017 1 30) d l := by
    refine (h2 _).2 (.inr ⟨⟨_, List.mem_singleton.2 rfl, ⟨fM, 12 * 47 + 1⟩, rfl, ?_, ?_, dayNum 2017 2 6, ?_, by decide +kernel⟩, ?_, ?_⟩)
    · rw [hb.1]; decide +kernel
    · rw [hb.2]; decide +kernel
    · unfold NthWeekdayIn IsNthWeekday; decide +kernel
    · rw [hb.1]; decide +kernel
    · rw [hb.2]; decide +kernel
  refine ⟨_, tb, h0, hl, h1, hs, ?_⟩
  intro h
  rcases (h _).1 hs with h3 | ⟨⟨⟨fr, o⟩, hp, k1, k2, d, k3, k4⟩, _⟩
  · rw [hb.1] at h3; revert h3; decide +kernel
  · have hp : fr = fM := hp
    subst hp
    have := k3.within rfl (show fM.base.Monthly by decide) (by decide)
    have e : d = dayNum 2017 2 6 := by
      have : date 2017 1 30 = (dayNum 2017 2 6 + -7) * nsDay := by decide +kernel
      rw [this] at k4
      unfold nsDay at k4
      omega
    subst e
    have w1 := near_right.1 k1
    have w2 := (near_left rfl).1 this.2
    have e1 : fM.base.ordOf (date 2017 1 30) = 564 := by decide +kernel
    have e2 : fM.base.ordOf (dayNum 2017 2 6 * nsDay) = 565 := by decide +kernel
    omega

end TB
