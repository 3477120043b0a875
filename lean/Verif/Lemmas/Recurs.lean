import Verif.Lemmas.Later
import Verif.Lemmas.When
import Verif.Model.When
/-! What recurs after which time. -/
namespace TB

theorem yearStart_400 (y n : Int) : yearStart (y + 400 * n) = yearStart y + 146097 * n := by
  unfold yearStart
  omega

theorem isLeap_400 (y n : Int) : isLeap (y + 400 * n) = isLeap y := by
  have : isLeap (y + 400 * n) = true ↔ isLeap y = true := by
    rw [isLeap_iff, isLeap_iff]; omega
  cases h1 : isLeap (y + 400 * n) <;> cases h2 : isLeap y <;> simp [h1, h2] at this ⊢

theorem monthStart_400 (k n : Int) : monthStart (k + 4800 * n) = monthStart k + 146097 * n := by
  unfold monthStart daysBefore
  rw [show 1970 + (k + 4800 * n) / 12 = 1970 + k / 12 + 400 * n by omega, yearStart_400, isLeap_400, show (k + 4800 * n) % 12 = k % 12 by omega]
  omega

theorem monthOf_400 (x n : Int) : monthOf (x + 146097 * n) = monthOf x + 4800 * n := by
  have h := ordOf_later (b := .M) (d := 146097 * n * nsDay) (k := 4800 * n) (fun o => by
    show monthStart (o + 4800 * n) * nsDay = monthStart o * nsDay + 146097 * n * nsDay
    rw [monthStart_400, Int.add_mul]) (x * nsDay)
  have e : nsDay ≠ 0 := by decide
  have e1 : (x * nsDay + 146097 * n * nsDay) / nsDay = x + 146097 * n := by
    rw [← Int.add_mul, Int.mul_ediv_cancel _ e]
  have e2 : x * nsDay / nsDay = x := Int.mul_ediv_cancel _ e
  have h' : monthOf ((x * nsDay + 146097 * n * nsDay) / nsDay) = monthOf (x * nsDay / nsDay) + 4800 * n := h
  rwa [e1, e2] at h'

/-- Seconds, minutes, hours and days recur after any number of days. -/
theorem Base.recurs_days (n : Int) : Base.Recurs .S (n * nsDay) ∧ Base.Recurs .T (n * nsDay) ∧ Base.Recurs .H (n * nsDay) ∧ Base.Recurs .D (n * nsDay) := by
  refine ⟨⟨n * 86400, fun o => ?_⟩, ⟨n * 1440, fun o => ?_⟩, ⟨n * 24, fun o => ?_⟩, ⟨n, fun o => ?_⟩⟩ <;>
  · simp only [Base.startOf, nsSec, nsMin, nsHour, nsDay]; omega

theorem Base.recurs_week (e : Fin 7) (n : Int) : Base.Recurs (.W e) (7 * n * nsDay) := by
  refine ⟨n, fun o => ?_⟩
  simp only [Base.startOf, nsDay]; omega

theorem Base.recurs_400 (b : Base) (n : Int) : b.Recurs (146097 * n * nsDay) := by
  cases b with
  | S => exact (Base.recurs_days _).1
  | T => exact (Base.recurs_days _).2.1
  | H => exact (Base.recurs_days _).2.2.1
  | D => exact (Base.recurs_days _).2.2.2
  | W e =>
    have := Base.recurs_week e (20871 * n)
    rwa [show 7 * (20871 * n) = 146097 * n by omega] at this
  | M =>
    refine ⟨4800 * n, fun o => ?_⟩
    simp only [Base.startOf]
    rw [monthStart_400, Int.add_mul]
  | Q e =>
    refine ⟨1600 * n, fun o => ?_⟩
    simp only [Base.startOf]
    rw [show 3 * (o + 1600 * n) + (((e : Nat) : Int) + 1) % 3 = 3 * o + (((e : Nat) : Int) + 1) % 3 + 4800 * n by omega, monthStart_400, Int.add_mul]
  | A e =>
    refine ⟨400 * n, fun o => ?_⟩
    simp only [Base.startOf]
    rw [show 12 * (o + 400 * n) + (((e : Nat) : Int) + 1) % 12 = 12 * o + (((e : Nat) : Int) + 1) % 12 + 4800 * n by omega, monthStart_400, Int.add_mul]

theorem snap_later {f : Freq} {d : Int} (h : f.base.Recurs d) (t : Time) : snap f (t + d) = snap f t + d := by
  obtain ⟨k, hk⟩ := h
  unfold snap
  rw [ordOf_later hk, hk]

theorem maskBy_later {p : Time → Time → Bool} {d : Int} (hp : ∀ a b, p (a + d) (b + d) = p a b) (xs bs : List Time) :
    maskBy p (xs.map (· + d)) (bs.map (· + d)) = (maskBy p xs bs).map (fun ts => ts.map (· + d)) := by
  unfold maskBy
  simp only [List.length_map]
  split
  · simp only [Except.map]
    congr 1
    rw [List.zip_map, List.filter_map, List.map_map, List.map_map]
    rw [List.filter_congr (q := fun x => p x.1 x.2) (fun x _ => by simp only [Function.comp, Prod.map, hp])]
    exact List.map_congr_left (fun _ _ => rfl)
  · rfl

/-- Indices with the same number of periods, the second of which starts `d` later. -/
theorem Frame.of_later {d : Int} {pi pi' : Frame} (h : pi.freq.base.Recurs d) (hf : pi'.freq = pi.freq) (hn : pi'.n = pi.n)
    (hs : pi'.startTime = pi.startTime + d) : ∃ k, pi.Moves d k ∧ pi' = pi.move k := by
  obtain ⟨k, hk⟩ := h
  refine ⟨k, hk, ?_⟩
  obtain ⟨g, o, n⟩ := pi
  obtain ⟨g', o', n'⟩ := pi'
  simp only at hf hn
  subst hf hn
  unfold Frame.move
  have e : o' = o + k := by
    have hs' : g'.base.startOf o' = g'.base.startOf o + d := by
      simpa [Frame.startTime, Frame.unitStart, Frame.ord] using hs
    have h1 := congrArg g'.base.ordOf hs'
    rw [← hk, Base.ordOf_startOf, Base.ordOf_startOf] at h1
    exact h1
  simp only [e]

theorem Frame.Moves.endTimes {f : Frame} {d k : Int} (h : f.Moves d k) : (f.move k).endTimes = f.endTimes.map (· + d) := by
  unfold Frame.endTimes
  rw [List.map_map]
  exact List.map_congr_left (fun i _ => h.unitEnd i)

theorem le_later (d : Int) (a b : Time) : decide (a + d ≤ b + d) = decide (a ≤ b) := by
  have : a + d ≤ b + d ↔ a ≤ b := by omega
  simp only [this]

/-- `from_start_of_each` recurs whenever the offset does. -/
theorem fromStartOfEach_later {kwargs : Option Offset} {bu : Freq} {d : Int} (hb : bu.base.Recurs d)
    (ho : ∀ t, addOffset (t + d) kwargs = addOffset t kwargs + d) {pi pi' : Frame} (h : pi.freq.base.Recurs d)
    (hf : pi'.freq = pi.freq) (hn : pi'.n = pi.n) (hs : pi'.startTime = pi.startTime + d) :
    fromStartOfEach kwargs pi' bu = (fromStartOfEach kwargs pi bu).map (fun ts => ts.map (· + d)) := by
  obtain ⟨k, hM, rfl⟩ := Frame.of_later h hf hn hs
  unfold fromStartOfEach
  split
  · rfl
  · rw [← maskBy_later (le_later d), hM.endTimes, hM.startTimes, List.map_map, List.map_map]
    congr 1
    apply List.map_congr_left
    intro t _
    simp only [Function.comp, ho, snap_later hb]

theorem addOffset_fixed {kwargs : Option Offset} (h : ∀ o, kwargs = some o → 12 * o.years + o.months = 0) (d : Int) (t : Time) :
    addOffset (t + d) kwargs = addOffset t kwargs + d := by
  cases kwargs with
  | none => simp only [addOffset]; omega
  | some o =>
    simp only [addOffset, h o rfl, addMonths_zero]; omega

theorem day_shift (t n : Int) : dayOf (t + 146097 * n * nsDay) = dayOf t + 146097 * n ∧ (t + 146097 * n * nsDay) % nsDay = t % nsDay := by
  unfold dayOf nsDay
  constructor <;> omega

theorem addMonths_400 (t m n : Int) : addMonths (t + 146097 * n * nsDay) m = addMonths t m + 146097 * n * nsDay := by
  unfold addMonths dayOfMonth monthLen
  simp only [(day_shift t n).1, (day_shift t n).2, monthOf_400]
  rw [show monthOf (dayOf t) + 4800 * n + m = monthOf (dayOf t) + m + 4800 * n by omega,
    show monthOf (dayOf t) + m + 4800 * n + 1 = monthOf (dayOf t) + m + 1 + 4800 * n by omega, monthStart_400, monthStart_400, monthStart_400]
  rw [show dayOf t + 146097 * n - (monthStart (monthOf (dayOf t)) + 146097 * n) + 1 = dayOf t - monthStart (monthOf (dayOf t)) + 1 by omega,
    show monthStart (monthOf (dayOf t) + m + 1) + 146097 * n - (monthStart (monthOf (dayOf t) + m) + 146097 * n) =
      monthStart (monthOf (dayOf t) + m + 1) - monthStart (monthOf (dayOf t) + m) by omega]
  generalize min (dayOf t - monthStart (monthOf (dayOf t)) + 1) (monthStart (monthOf (dayOf t) + m + 1) - monthStart (monthOf (dayOf t) + m)) = z
  rw [show monthStart (monthOf (dayOf t) + m) + 146097 * n + z - 1 = (monthStart (monthOf (dayOf t) + m) + z - 1) + 146097 * n by omega, Int.add_mul]
  omega

theorem addOffset_400 (kwargs : Option Offset) (n : Int) (t : Time) :
    addOffset (t + 146097 * n * nsDay) kwargs = addOffset t kwargs + 146097 * n * nsDay := by
  cases kwargs with
  | none => simp only [addOffset]; omega
  | some o => simp only [addOffset, addMonths_400]; omega

theorem dedup_map_add (k : Int) : ∀ xs : List Int, dedup (xs.map (· + k)) = (dedup xs).map (· + k)
  | [] => rfl
  | x :: xs => by
    simp only [List.map_cons, dedup, dedup_map_add k xs, List.head?_map]
    have e : (Option.map (· + k) xs.head? = some (x + k)) ↔ xs.head? = some x := by
      cases xs.head? with
      | none => simp
      | some y => simp
    by_cases hc : xs.head? = some x
    · rw [if_pos hc, if_pos (e.2 hc)]
    · rw [if_neg hc, if_neg (fun h => hc (e.1 h))]; rfl

theorem weekday_400 (x n : Int) : weekday (x + 146097 * n) = weekday x := by
  unfold weekday; omega

theorem addWeeks_400 (x m w n : Int) : addWeeks (x + 146097 * n) m w = addWeeks x m w + 146097 * n := by
  unfold addWeeks
  rw [weekday_400]
  split <;> omega

theorem nthWeekdayOfMonth_later (month week wday : Int) (shift : Option Int) (bu : Freq) (n : Int) {pi pi' : Frame}
    (hf : pi'.freq = pi.freq) (hn : pi'.n = pi.n) (hs : pi'.startTime = pi.startTime + 146097 * n * nsDay) :
    nthWeekdayOfMonth month week wday shift pi' bu =
      (nthWeekdayOfMonth month week wday shift pi bu).map (fun ts => ts.map (· + 146097 * n * nsDay)) := by
  obtain ⟨k, hM, rfl⟩ := Frame.of_later (Base.recurs_400 _ n) hf hn hs
  generalize hD : 146097 * n * nsDay = D at *
  unfold nthWeekdayOfMonth
  split
  · rfl
  · have e1 : (pi.move k).startTimes.map (fun t => monthOf (dayOf t)) = (pi.startTimes.map (fun t => monthOf (dayOf t))).map (· + 4800 * n) := by
      rw [hM.startTimes, List.map_map, List.map_map]
      apply List.map_congr_left
      intro t _
      simp only [Function.comp, ← hD, (day_shift t n).1, monthOf_400]
    have e2 : ∀ (ms : List Int) (j : Int), (ms.map (· + 4800 * n)).map (fun k => monthStart (k + j) * nsDay) = (ms.map (fun k => monthStart (k + j) * nsDay)).map (· + D) := by
      intro ms j
      rw [List.map_map, List.map_map]
      apply List.map_congr_left
      intro t _
      simp only [Function.comp]
      rw [show t + 4800 * n + j = t + j + 4800 * n by omega, monthStart_400, Int.add_mul, hD]
    have e3 : ∀ (ms : List Int) (j : Int), (ms.map (· + 4800 * n)).map (fun k => (monthStart (k + j) - 1) * nsDay) = (ms.map (fun k => (monthStart (k + j) - 1) * nsDay)).map (· + D) := by
      intro ms j
      rw [List.map_map, List.map_map]
      apply List.map_congr_left
      intro t _
      simp only [Function.comp]
      rw [show t + 4800 * n + j = t + j + 4800 * n by omega, monthStart_400, show monthStart (t + j) + 146097 * n - 1 = monthStart (t + j) - 1 + 146097 * n by omega, Int.add_mul, hD]
    have e4 : ∀ (ts : List Time) (m : Time → Int), (∀ t, m (t + D) = m t) →
        (ts.map (· + D)).map (fun t => addWeeks (dayOf t) (m t) (wday - 1) * nsDay) = (ts.map (fun t => addWeeks (dayOf t) (m t) (wday - 1) * nsDay)).map (· + D) := by
      intro ts m hm
      rw [List.map_map, List.map_map]
      apply List.map_congr_left
      intro t _
      simp only [Function.comp, hm]
      rw [← hD, (day_shift t n).1, addWeeks_400, Int.add_mul]
    have hwd : ∀ t, weekday (dayOf (t + D)) = weekday (dayOf t) := by
      intro t; rw [← hD, (day_shift t n).1, weekday_400]
    have hle : ∀ xs bs : List Time, maskBy (fun t e => decide (t ≤ e)) (xs.map (· + D)) (bs.map (· + D)) =
        (maskBy (fun t e => decide (t ≤ e)) xs bs).map (fun ts => ts.map (· + D)) :=
      maskBy_later (p := fun t e => decide (t ≤ e)) (fun a b => le_later D a b)
    have hge : ∀ a b : Time, decide (b + D ≤ a + D) = decide (b ≤ a) := fun a b => le_later D b a
    have e5 : ∀ r : Except Err (List Time), (do let dtw ← r.map (fun ts => ts.map (· + D)); return dtw.map (fun t => addOffset t (some { days := shift.getD 0 }))) =
        Except.map (fun ts => ts.map (· + D)) (do let dtw ← r; return dtw.map (fun t => addOffset t (some { days := shift.getD 0 }))) := by
      intro r
      cases r with
      | error e => rfl
      | ok ts =>
        simp only [Except.map, Bind.bind, Except.bind, pure, Except.pure]
        congr 1
        rw [List.map_map, List.map_map]
        apply List.map_congr_left
        intro t _
        simp only [Function.comp, ← hD, addOffset_400]
    simp only [e1, dedup_map_add, e2, e3, hM.endTimes, hle]
    cases maskBy (fun t e => decide (t ≤ e)) (List.map (fun k => monthStart (k + (month - 1)) * nsDay) (dedup (List.map (fun t => monthOf (dayOf t)) pi.startTimes))) pi.endTimes with
    | error e => rfl
    | ok starts =>
      cases maskBy (fun t e => decide (t ≤ e)) (List.map (fun k => (monthStart (k + month) - 1) * nsDay) (dedup (List.map (fun t => monthOf (dayOf t)) pi.startTimes))) pi.endTimes with
      | error e => rfl
      | ok ends =>
        simp only [Except.map, Bind.bind, Except.bind] at e5 ⊢
        by_cases hw : week > 0
        · simp only [if_pos hw]
          rw [e4 starts (fun t => week - (if weekday (dayOf t) = wday - 1 then 1 else 0)) (fun t => by rw [hwd]), hle]
          exact e5 _
        · simp only [if_neg hw]
          rw [e4 ends (fun t => week + (if weekday (dayOf t) = wday - 1 then 1 else 0)) (fun t => by rw [hwd]), maskBy_later (p := fun t s => decide (s ≤ t)) hge]
          exact e5 _

end TB
