import Verif.Lemmas.Recipes
import Verif.Lemmas.AmendCounts
import Verif.Props.Rota
import Verif.Props.Periods
import Verif.Model.Calendars
import Verif.Examples.Boards
/-! Property C110: the recipes of the documentation. -/
namespace TB
open TB.Ex
variable {L : Type}

theorem Timeboard.Reachable.getWorkshift_new {tb : Timeboard L} (h : tb.Reachable) {t : Time} {w : Workshift L} (hw : tb.getWorkshift t = .ok w) :
    Workshift.new tb w.loc (some tb.defaultSchedule) = .ok w ∧ 0 ≤ w.loc ∧ w.loc < tb.timeline.len := by
  have hv := h.valid
  by_cases hin : tb.Within t
  · obtain ⟨k, hk⟩ := hv.at_exists hin
    unfold Timeboard.getWorkshift at hw
    rw [hv.locate_at hk] at hw
    simp only at hw
    have := Workshift.new_loc hw
    rw [this]
    exact ⟨hw, hk.1, hk.2.1⟩
  · rw [(C02_get_workshift h t none).2 hin] at hw; cases hw

/-- **C110**, "Determining deadlines".  Let `ons` be the workshifts on duty from the one which contains the start of the project on.  The
timetable exists iff there are as many of them as the stages need together, otherwise OutOfBoundsError is raised.  The stages take the
members of `ons` one after another without gaps, each stage as many as its duration tells, and the timetable shows the first and the last
one of each stage. -/
theorem C110_deadlines {tb : Timeboard L} (h : tb.Reachable) {t : Time} {w : Workshift L} (hw : tb.getWorkshift t = .ok w) {ds : List Nat}
    (hd : ∀ d ∈ ds, 1 ≤ d) :
    ∃ ons, tb.ListsDuty tb.defaultSchedule .on w.loc (tb.timeline.len - 1) ons ∧
      (∀ r, tb.timetable t (ds.map (fun d : Nat => (d : Int))) = .ok r ↔
        ∃ (stages : List (List (Workshift L))) (rest : List (Workshift L)), ons = stages.flatten ++ rest ∧ stages.map List.length = ds ∧
          r.map (fun p => (some p.1, some p.2)) = stages.map (fun b => (b.head?, b.getLast?))) ∧
      (∀ e, tb.timetable t (ds.map (fun d : Nat => (d : Int))) = .error e ↔ (e = .outOfBounds ∧ ons.length < ds.sum)) := by
  have hv := h.valid
  have ho : tb.Owns tb.defaultSchedule := hv.effective_owned (s := none) (by intro y hy; cases hy)
  obtain ⟨w1, w2, w3⟩ := h.getWorkshift_new hw
  obtain ⟨v, hiv⟩ : ∃ v, Interval.new tb (w.loc, tb.timeline.len - 1) (some tb.defaultSchedule) = .ok v :=
    ⟨_, Interval.new_ok_iff.2 ⟨by omega, by omega, by omega, rfl⟩⟩
  have hvs : v.schedule = tb.defaultSchedule := by
    obtain ⟨_, _, _, e⟩ := Interval.new_ok_iff.1 hiv
    rw [e]; rfl
  obtain ⟨ons, _, hl, _⟩ := (C17_iteration h hiv (s1 := none) (by intro y hy; cases hy; exact ho) (by intro y hy; cases hy)).1 .on (.inl rfl)
  simp only [Option.getD_none, hvs] at hl
  have key : tb.timetable t (ds.map (fun d : Nat => (d : Int))) = match cutEnds ons ds with | some r => .ok r | none => .error .outOfBounds := by
    cases ds with
    | nil => rfl
    | cons d ds =>
      have h1 : 1 ≤ d := hd d List.mem_cons_self
      simp only [List.map_cons, Timeboard.timetable, hw, Workshift.add]
      unfold cutEnds
      have hr := Workshift.roll_picks h ⟨w2, w3⟩ w1 ho hl 0
      simp only [bind, Except.bind]
      rw [show (0 : Int) = ((0 : Nat) : Int) from rfl, hr]
      cases ha : ons[0]? with
      | none => rfl
      | some a =>
        obtain ⟨a1, a2, a3, a4⟩ := ends_of_lists hl ha
        have hons : a :: ons.drop (0 + 1) = ons := by
          cases ons with
          | nil => simp at ha
          | cons p ps => simp at ha; simp [ha]
        rw [hons] at a4
        have hr2 := Workshift.roll_picks h ⟨a2, a3⟩ a1 ho a4 (d - 1)
        have ec : ((d : Int) - 1) = ((d - 1 : Nat) : Int) := by omega
        simp only
        rw [ec, hr2]
        cases hb : ons[d - 1]? with
        | none => rfl
        | some b' =>
          obtain ⟨_, _, _, c4⟩ := ends_of_lists a4 hb
          rw [show d - 1 + 1 = d by omega] at c4
          simp only [Timeboard.stagesAfter_eq h ho (fun x hx => hd x (List.mem_cons_of_mem _ hx)) b' _ c4]
          cases cutEnds (ons.drop d) ds <;> rfl
  refine ⟨ons, hl, fun r => ?_, fun e => ?_⟩
  · rw [← cutEnds_some_iff hd, key]
    cases cutEnds ons ds <;> simp
  · rw [← cutEnds_none_iff hd, key]
    cases cutEnds ons ds <;> simp [eq_comm]

/-- What a portion is, under a schedule `s`: `what_portion_of` times the number of workshifts is the number of the common ones. -/
theorem portion_times {tb : Timeboard L} (h : tb.Reachable) {u v : Interval L} (hu : tb.HasInterval u) (hv : tb.HasInterval v)
    {sch : Option (Schedule L)} (hs : tb.OwnsOpt sch) {d : Duty} (hd : d = .on ∨ d = .off ∨ d = .any) {wv : List (Workshift L)}
    (hw : v.workshifts tb d (some (sch.getD u.schedule)) = .ok wv) :
    ∃ q, u.whatPortionOf tb v d sch = .ok q ∧ q * (wv.length : Rat) = ((wv.filter (fun w => u.numbers.contains w.loc)).length : Rat) := by
  have hvd := h.valid
  have fu := hu.fine hvd
  obtain ⟨wu, wv', q, e1, e2, e3, e4, _⟩ := C25_what_portion_of h hu hv hs hd
  rw [hw] at e2; cases e2
  refine ⟨q, e3, ?_⟩
  have hf : (wv.filter (fun w => (wu.map (fun w => w.loc)).contains w.loc)) = wv.filter (fun w => u.numbers.contains w.loc) := by
    apply List.filter_congr
    intro w _
    obtain ⟨wu', i1, i2⟩ := fu.iter_spec hvd
    rw [e1] at i1; cases i1
    rw [i2, Bool.eq_iff_iff, List.contains_iff_mem, List.contains_iff_mem, fu.mem_numbers, mem_intRange]
    omega
  rw [hf] at e4
  simp only at e4
  have hle : (wv.filter (fun w => u.numbers.contains w.loc)).length ≤ wv.length := List.length_filter_le _ _
  generalize (wv.filter (fun w => u.numbers.contains w.loc)).length = n at e4 hle
  rw [e4]
  split
  · rename_i h0; rw [h0]; grind
  · have : ((wv.length : Int) : Rat) ≠ 0 := by
      intro hz
      have := Rat.intCast_eq_zero_iff.1 hz
      omega
    rw [← Rat.intCast_natCast wv.length, Rat.div_mul_cancel this, Rat.intCast_natCast]

theorem sum_const_filter {α : Type} (p : α → Bool) (r : Rat) : ∀ l : List α,
    (l.map (fun x => if p x then r else 0)).sum = r * ((l.filter p).length : Rat)
  | [] => by simp
  | x :: l => by
    rw [List.map_cons, List.sum_cons, sum_const_filter p r l, List.filter_cons]
    split
    · rw [List.length_cons, Rat.natCast_add]; grind
    · grind

/-- **C110**, "Average annual headcount" and "Periodic salary".  The portions `clnd(tenure) / period` exist for all members of the staff.
Multiplied by the rates and added up, they give the average, over the workshifts with the duty in the period, of the sum of the rates of
those who are employed at the workshift.  With all rates equal to 1 this is the average headcount. -/
theorem C110_headcount {tb : Timeboard L} (h : tb.Reachable) {y : Interval L} (hy : tb.HasInterval y) {s : Schedule L} (hs : tb.Owns s)
    {d : Duty} (hd : d = .on ∨ d = .off ∨ d = .any) {register : List (Interval L × Rat)} (hr : ∀ p ∈ register, tb.HasInterval p.1) :
    ∃ ws qs, y.workshifts tb d (some s) = .ok ws ∧ register.mapM (fun p => p.1.whatPortionOf tb y d (some s)) = .ok qs ∧
      (List.zipWith (fun (p : Interval L × Rat) q => p.2 * q) register qs).sum * (ws.length : Rat) =
        (ws.map (fun w => ((employed register w.loc).map Prod.snd).sum)).sum := by
  have hos : tb.OwnsOpt (some s) := by intro x hx; cases hx; exact hs
  obtain ⟨ws, hw, _⟩ := (hy.fine h.valid).workshifts_spec h.valid hos hd
  have key : ∀ register : List (Interval L × Rat), (∀ p ∈ register, tb.HasInterval p.1) →
      ∃ qs, register.mapM (fun p => p.1.whatPortionOf tb y d (some s)) = .ok qs ∧
        (List.zipWith (fun (p : Interval L × Rat) q => p.2 * q) register qs).sum * (ws.length : Rat) =
          (ws.map (fun w => ((employed register w.loc).map Prod.snd).sum)).sum := by
    intro register
    induction register with
    | nil =>
      intro _
      refine ⟨[], rfl, ?_⟩
      have : (fun w : Workshift L => ((employed ([] : List (Interval L × Rat)) w.loc).map Prod.snd).sum) = fun _ => (0 : Rat) := rfl
      rw [this]
      simp only [List.zipWith_nil_left, List.sum_nil]
      have hz : ∀ l : List (Workshift L), (l.map (fun _ => (0 : Rat))).sum = 0 := by
        intro l
        induction l with
        | nil => rfl
        | cons w ws ih => rw [List.map_cons, List.sum_cons, ih]; grind
      rw [hz]; grind
    | cons p register ih =>
      intro hr
      obtain ⟨qs, q1, q2⟩ := ih (fun x hx => hr x (List.mem_cons_of_mem _ hx))
      obtain ⟨q, e1, e2⟩ := portion_times h (hr p List.mem_cons_self) hy hos hd (wv := ws) hw
      refine ⟨q :: qs, by rw [List.mapM_cons, e1, q1]; rfl, ?_⟩
      have hsplit : (fun w : Workshift L => ((employed (p :: register) w.loc).map Prod.snd).sum) =
          fun w => (if p.1.numbers.contains w.loc then p.2 else 0) + ((employed register w.loc).map Prod.snd).sum := by
        funext w
        unfold employed
        rw [List.filter_cons]
        split
        · rw [List.map_cons, List.sum_cons]
        · grind
      have hadd : ∀ l : List (Workshift L), (l.map (fun w => (if p.1.numbers.contains w.loc then p.2 else 0) + ((employed register w.loc).map Prod.snd).sum)).sum =
          (l.map (fun w => if p.1.numbers.contains w.loc then p.2 else 0)).sum + (l.map (fun w => ((employed register w.loc).map Prod.snd).sum)).sum := by
        intro l
        induction l with
        | nil => simp only [List.map_nil, List.sum_nil]; grind
        | cons x l ih => simp only [List.map_cons, List.sum_cons, ih]; grind
      rw [hsplit, hadd, sum_const_filter (fun w : Workshift L => p.1.numbers.contains w.loc), ← q2, ← e2, List.zipWith_cons_cons, List.sum_cons]
      grind
  obtain ⟨qs, q1, q2⟩ := key register hr
  exact ⟨ws, qs, hw, q1, q2⟩

/-- The interval of a calendar period has the workshifts with reference times in the period. -/
theorem period_contains {tb : Timeboard L} (h : tb.Reachable) {p : Period} {v : Interval L}
    (hv : tb.getInterval (some (.period p)) = .ok v) : tb.HasInterval v ∧ ∀ k, v.Contains tb k ↔ tb.RefIn p k := by
  have hs : tb.OwnsOpt (none : Option (Schedule L)) := by intro x hx; cases hx
  by_cases hk : ∃ k, tb.RefIn p k
  · obtain ⟨v', e, e1, _, _, hc⟩ := (getInterval_period_cases h hs p).1 hk
    cases e.symm.trans hv
    exact ⟨e1, hc⟩
  · rcases (getInterval_period_cases h hs p).2 (fun k hk' => hk ⟨k, hk'⟩) with e | e
    · cases e.symm.trans hv
    · cases e.symm.trans hv

/-- The portion of a calendar period. -/
theorem portion_of_period {tb : Timeboard L} (h : tb.Reachable) {t m : Interval L} (ht : tb.HasInterval t) {p : Period} (hm : tb.HasInterval m)
    (hp : ∀ k, m.Contains tb k ↔ tb.RefIn p k) {sch : Option (Schedule L)} (hs : tb.OwnsOpt sch) {d : Duty} (hd : d = .on ∨ d = .off ∨ d = .any) :
    t.whatPortionOf tb m d sch = .ok ((tb.partOf t (sch.getD t.schedule) d p : Rat) / (tb.wholeOf (sch.getD t.schedule) d p : Rat)) := by
  have hv := h.valid
  have ft := ht.fine hv
  have fm := hm.fine hv
  obtain ⟨xs, hx⟩ := hv.listedAs
  have hin : ∀ k, k ∈ Reference.having xs (sch.getD t.schedule).selector d ↔ tb.DutyAt (sch.getD t.schedule) d k := by
    intro k
    rw [hx.mem_having hv, hv.dutyAt_iff]
  have hsorted : ∀ y : Interval L, y.numbers.Pairwise (· < ·) := by
    intro y
    unfold Interval.numbers
    split
    · exact List.Pairwise.nil
    · exact pairwise_intRange _ _
  have hmem : ∀ k, k ∈ m.numbers ↔ tb.RefIn p k := fun k => by rw [fm.mem_numbers, ← fm.contains_iff hv, hp]
  have hmt : ∀ k, k ∈ t.numbers ↔ t.Contains tb k := fun k => by rw [ft.mem_numbers, ← ft.contains_iff hv]
  rw [hx.portion hv ft fm hs d]
  unfold Reference.portion
  rw [known_good hd]
  unfold Timeboard.partOf Timeboard.wholeOf
  rw [Timeboard.howMany_eq (ks := Reference.among xs (sch.getD t.schedule).selector d (Reference.overlap t.numbers m.numbers)),
    Timeboard.howMany_eq (ks := Reference.among xs (sch.getD t.schedule).selector d m.numbers)]
  · exact (hsorted m).filter _
  · intro k
    unfold Reference.among
    rw [List.mem_filter, decide_eq_true_eq, hin, hmem]
    constructor
    · rintro ⟨a, b⟩; exact ⟨b.1, b.2.1, b, a⟩
    · rintro ⟨_, _, b, a⟩; exact ⟨a, b⟩
  · exact ((hsorted t).filter _).filter _
  · intro k
    unfold Reference.among Reference.overlap
    rw [List.mem_filter, List.mem_filter, decide_eq_true_eq, decide_eq_true_eq, hin, hmem, hmt]
    constructor
    · rintro ⟨⟨a, b⟩, c⟩; exact ⟨c.1, c.2.1, a, c, b⟩
    · rintro ⟨_, _, a, c, b⟩; exact ⟨⟨a, b⟩, c⟩

/-- **C110**, "Calculating bonus": an annual salary.  Let the interval `y` consist of the calendar periods `os` (say, of the months of a
year).  Then `t.overlap(y).count_periods(freq)`, whenever it is a number, is what the portions `t / m` of all those periods `m` give
together: the salary paid for the count of months in the year is the sum of the salaries paid month by month. -/
theorem C110_salary {tb : Timeboard L} (h : tb.Reachable) {t y : Interval L} (ht : tb.HasInterval t) (hy : tb.HasInterval y)
    {sch : Option (Schedule L)} (hs : tb.OwnsOpt sch) {d : Duty} (hd : d = .on ∨ d = .off ∨ d = .any) {freq : Freq} {os : List Int}
    (hn : os.Nodup) {ms : List (Interval L)} (hm : os.mapM (fun o => tb.getInterval (some (.period ⟨freq, o⟩))) = .ok ms)
    (hin : ∀ k, y.Contains tb k ↔ ∃ o ∈ os, tb.RefIn ⟨freq, o⟩ k) {x : Interval L} (hx : t.overlap tb y sch = .ok x) {r : Rat}
    (hr : x.countPeriods tb freq d sch = .ok r) :
    ∃ qs, ms.mapM (fun m => t.whatPortionOf tb m d sch) = .ok qs ∧ qs.sum = r := by
  have hv := h.valid
  have hxi : tb.HasInterval x := .overlap ht hy hs hx
  obtain ⟨x', e1, e2, e3, e4, _⟩ := C23_overlap_is_intersection h ht hy hs
  rw [hx] at e1; cases e1
  have hcase := ((hxi.fine hv).countPeriods_val h hs hd hr).2
  have hsch : sch.getD x.schedule = sch.getD t.schedule := by
    rw [e2]; cases sch <;> rfl
  have hc := (C28_sum_of_ratios h hxi hs hd hr).1 os hn
  rw [hsch] at hc
  have hpart : ∀ o ∈ os, tb.partOf x (sch.getD t.schedule) d ⟨freq, o⟩ = tb.partOf t (sch.getD t.schedule) d ⟨freq, o⟩ := by
    intro o ho
    unfold Timeboard.partOf
    congr 1
    funext k
    rw [e3, hin]
    apply propext
    constructor
    · rintro ⟨⟨a, _⟩, b, c⟩; exact ⟨a, b, c⟩
    · rintro ⟨a, b, c⟩; exact ⟨⟨a, o, ho, c⟩, b, c⟩
  have hsum := hc (fun o ho => by
    apply Classical.byContradiction
    intro hno
    apply ho
    unfold Timeboard.partOf
    apply Timeboard.howMany_eq (ks := []) List.Pairwise.nil
    intro k
    simp only [List.not_mem_nil, false_iff]
    rintro ⟨_, _, a, _, c⟩
    obtain ⟨o', ho', c'⟩ := (hin k).1 ((e3 k).1 a).2
    rcases hcase with hc | ⟨hc, _⟩
    · rw [e4.1 ⟨k, (e3 k).1 a⟩] at hc; cases hc
    · have hm1 := supportedPeriod_mult hc
      rw [hv.refIn_per hm1] at c c'
      rw [c.2.2] at c'
      exact hno (c'.2.2 ▸ ho'))
  have key : ∀ (os : List Int) (ms : List (Interval L)), os.mapM (fun o => tb.getInterval (some (.period ⟨freq, o⟩))) = .ok ms →
      ms.mapM (fun m => t.whatPortionOf tb m d sch) = .ok (os.map (fun o => (tb.partOf t (sch.getD t.schedule) d ⟨freq, o⟩ : Rat) /
        (tb.wholeOf (sch.getD t.schedule) d ⟨freq, o⟩ : Rat))) := by
    intro os
    induction os with
    | nil => intro ms hm; cases hm; rfl
    | cons o os ih =>
      intro ms hm
      rw [List.mapM_cons] at hm
      cases hg : tb.getInterval (some (.period ⟨freq, o⟩)) with
      | error e => rw [hg] at hm; cases hm
      | ok m =>
        rw [hg] at hm
        cases hg2 : os.mapM (fun o => tb.getInterval (some (.period ⟨freq, o⟩))) with
        | error e => simp only [hg2] at hm; cases hm
        | ok ms' =>
          simp only [hg2] at hm
          cases hm
          obtain ⟨p1, p2⟩ := period_contains h hg
          rw [List.mapM_cons, portion_of_period h ht p1 p2 hs hd, ih ms' hg2]
          rfl
  refine ⟨_, key os ms hm, ?_⟩
  rw [hsum]
  congr 1
  apply List.map_congr_left
  intro o ho
  rw [hpart o ho]

theorem mapM_ok_length {α β : Type} {f : α → Except Err β} : ∀ {l : List α} {r : List β}, l.mapM f = .ok r → r.length = l.length
  | [], r, h => by cases h; rfl
  | a :: l, r, h => by
    rw [List.mapM_cons] at h
    cases ha : f a with
    | error e => rw [ha] at h; cases h
    | ok b =>
      rw [ha] at h
      cases hl : l.mapM f with
      | error e => simp only [hl] at h; cases h
      | ok bs =>
        simp only [hl] at h
        cases h
        rw [List.length_cons, List.length_cons, mapM_ok_length hl]

/-- A calendar year consists of its twelve months. -/
theorem year_of_months {tb : Timeboard L} (hv : tb.Valid) (o k : Int) :
    tb.RefIn ⟨fA, o⟩ k ↔ ∃ j ∈ intRange (12 * o) (12 * o + 12), tb.RefIn ⟨fM, j⟩ k := by
  rw [hv.refIn_per rfl]
  constructor
  · rintro ⟨h0, h1, h2⟩
    refine ⟨tb.per fM k, ?_, (hv.refIn_per rfl).2 ⟨h0, h1, rfl⟩⟩
    rw [mem_intRange]
    have e : tb.per fA k = tb.per fM k / 12 := by
      show (monthOf _ - 0) / 12 = monthOf _ / 12
      rw [Int.sub_zero]
    omega
  · rintro ⟨j, hj, hk⟩
    rw [mem_intRange] at hj
    obtain ⟨h0, h1, h2⟩ := (hv.refIn_per rfl).1 hk
    refine ⟨h0, h1, ?_⟩
    have e : tb.per fA k = tb.per fM k / 12 := by
      show (monthOf _ - 0) / 12 = monthOf _ / 12
      rw [Int.sub_zero]
    omega

/-- **C110**, "Calculating bonus" as written in the documentation: with `y` the interval of a calendar year and `ms` the intervals of its
twelve months, `clnd(tenure).overlap(y).count_periods('M')` is the sum of the portions `clnd(tenure) / m`. -/
theorem C110_annual_salary {tb : Timeboard L} (h : tb.Reachable) {t y : Interval L} (ht : tb.HasInterval t) {o : Int}
    (hy : tb.getInterval (some (.period ⟨fA, o⟩)) = .ok y) {ms : List (Interval L)}
    (hm : (intRange (12 * o) (12 * o + 12)).mapM (fun j => tb.getInterval (some (.period ⟨fM, j⟩))) = .ok ms) {x : Interval L}
    (hx : t.overlap tb y = .ok x) {r : Rat} (hr : x.countPeriods tb fM = .ok r) :
    ms.length = 12 ∧ ∃ qs, ms.mapM (fun m => t.whatPortionOf tb m) = .ok qs ∧ qs.sum = r := by
  obtain ⟨y1, y2⟩ := period_contains h hy
  refine ⟨?_, C110_salary h ht y1 (by intro z hz; cases hz) (.inl rfl) (nodup_intRange _ _) hm
    (fun k => by rw [y2, year_of_months h.valid]) hx hr⟩
  have := mapM_ok_length hm
  rw [length_intRange] at this
  omega

/-! ### The examples of the documentation -/

/-- The project of the documentation: 14, 2 and 3 working days from 1 January 2018 in the Russian calendar. -/
def docTimetable : Except Err (List (Time × Time)) := do
  let clnd ← ruCalendar.new
  let r ← clnd.timetable (date 2018 1 1) [14, 2, 3]
  r.mapM (fun p => do return (← p.1.toTimestamp clnd, ← p.2.toTimestamp clnd))
#guard docTimetable = .ok [(date 2018 1 9, date 2018 1 26), (date 2018 1 29, date 2018 1 30), (date 2018 1 31, date 2018 2 2)]

/-- The staff register of the documentation: tenures and rates. -/
def docStaff : List ((Option Time × Option Time) × Rat) :=
  [((some (date 2012 2 1), some (date 2017 11 11)), 700), ((some (date 2012 5 10), some (date 2017 1 1)), 1000),
   ((some (date 2017 1 3), some (date 2017 7 17)), 800), ((some (date 2017 1 2), some (date 2017 11 7)), 500),
   ((some (date 2017 4 3), some (date 2017 4 28)), 200), ((some (date 2017 4 18), none), 500),
   ((some (date 2017 7 18), some (date 2017 12 29)), 800), ((some (date 2017 12 30), none), 1000), ((some (date 2018 2 1), none), 100)]

/-- The portions of a period taken by the tenures, in the British calendar. -/
def docPortions (f : Freq) (t : Time) : Except Err (List Rat) := do
  let clnd ← ukCalendar.new
  let period ← clnd.getInterval (some (.point t)) none (some f)
  docStaff.mapM (fun p => do (← clnd.getInterval (some (.pair p.1.1 p.1.2))).whatPortionOf clnd period)
/- Headcount 3.5079365…, salaries of April 700, 0, 800, 500, 200, 250, 0, 0, 0. -/
#guard (docPortions fA (date 2017 1 1)).map List.sum = .ok (221 / 63)
#guard (docPortions fM (date 2017 4 1)).map (List.zipWith (fun p q => p.2 * q) docStaff) = .ok [700, 0, 800, 500, 200, 250, 0, 0, 0]

/-- Annual salaries, in months of 2017, as a count of months and month by month. -/
def docMonths : Except Err (List Rat × List Rat) := do
  let clnd ← ukCalendar.new
  let y ← clnd.getInterval (some (.point (date 2017 1 1))) none (some fA)
  let ms ← (intRange (12 * 47) (12 * 47 + 12)).mapM (fun j => clnd.getInterval (some (.period ⟨fM, j⟩)))
  let tenures ← docStaff.mapM (fun p => clnd.getInterval (some (.pair p.1.1 p.1.2)))
  return (← tenures.mapM (fun t => do (← t.overlap clnd y).countPeriods clnd fM),
    ← tenures.mapM (fun t => do return (← ms.mapM (fun m => t.whatPortionOf clnd m)).sum))
#guard (docMonths.map (fun p => decide (p.1 = p.2 ∧ p.1.length = 9))) = .ok true

/-- A project which needs more working days than there are. -/
example : (week.timetable (date 2017 1 1) [14, 2, 3]).map (fun r => r.map (fun p => (p.1.loc, p.2.loc))) = .ok [(2, 18), (19, 22), (23, 25)] ∧
    (week.timetable (date 2017 1 1) [14, 2, 300]).map (fun _ => ()) = .error .outOfBounds := by decide +kernel

end TB
