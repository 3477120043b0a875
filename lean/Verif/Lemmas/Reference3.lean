import Verif.Lemmas.Reference2
import Verif.Props.CountPeriods
import Verif.Props.Worktime
/-! Intervals by the reference program. -/
namespace TB
open Reference
variable {L : Type} {tb : Timeboard L} {xs : List (Shift L)}

theorem Interval.Proper.numbers_eq {v : Interval L} (hp : v.Proper tb) : v.numbers = intRange v.lo (v.hi + 1) := by
  unfold Interval.numbers
  rw [hp.not_void]; rfl

theorem Interval.Proper.numbers_ne {v : Interval L} (hp : v.Proper tb) : v.numbers ≠ [] := by
  rw [hp.numbers_eq, Ne, intRange_eq_nil_iff]
  have := hp.lo_le_hi
  omega

theorem Interval.Hollow.numbers_eq {v : Interval L} (hh : v.Hollow tb) : v.numbers = [] := by
  unfold Interval.numbers
  rw [hh.void]; rfl

theorem Interval.Fine.mem_numbers {v : Interval L} (hf : v.Fine tb) {k : Int} : k ∈ v.numbers ↔ v.lo ≤ k ∧ k ≤ v.hi := by
  rcases hf.shape with hp | hh
  · rw [hp.numbers_eq, mem_intRange]; omega
  · rw [hh.numbers_eq]
    have := hh.hi_lt_lo
    simp; omega

theorem known_good {α : Type} {ms : List Int} {d : Duty} {r : Except Err α} (hd : d = .on ∨ d = .off ∨ d = .any) : known ms d r = r := by
  unfold known
  rw [if_pos]
  rcases hd with h | h | h
  · exact .inl h
  · exact .inr (.inl h)
  · exact .inr (.inr (.inl h))

theorem known_nil {α : Type} {d : Duty} {r : Except Err α} : known [] d r = r := by
  unfold known
  rw [if_pos (.inr (.inr (.inr rfl)))]

theorem known_bad {α : Type} {ms : List Int} {d : Duty} {r : Except Err α} (hd : ¬ (d = .on ∨ d = .off ∨ d = .any)) (hm : ms ≠ []) :
    known ms d r = .error .valueError := by
  unfold known
  rw [if_neg]
  rintro (h | h | h | h)
  · exact hd (.inl h)
  · exact hd (.inr (.inl h))
  · exact hd (.inr (.inr h))
  · exact hm h

theorem Timeboard.ListedAs.among_numbers (hx : tb.ListedAs xs) (hv : tb.Valid) (sel : L → Bool) (d : Duty) {v : Interval L} (hp : v.Proper tb) :
    among xs sel d v.numbers = tb.dutyPositions sel d v.lo v.hi := by
  rw [hp.numbers_eq]
  exact hx.among_eq hv sel d hp.lo_nonneg hp.hi_lt

theorem pyGet?_reverse {α : Type} (l : List α) (n : Int) : pyGet? l n = if 0 ≤ n then l[n.toNat]? else l.reverse[(-n - 1).toNat]? := by
  unfold pyGet?
  split
  · rfl
  · rename_i h
    split
    · rename_i h2
      rw [List.getElem?_reverse (by omega)]
      congr 1; omega
    · rw [List.getElem?_eq_none]; simp; omega

theorem among_nil (xs : List (Shift L)) (sel : L → Bool) (d : Duty) : among xs sel d [] = [] := rfl

section
variable (hx : tb.ListedAs xs) (hv : tb.Valid) {v : Interval L} (hf : v.Fine tb) {sch : Option (Schedule L)} (hs : tb.OwnsOpt sch) (d : Duty)
include hx hv hf hs

theorem Timeboard.ListedAs.count : v.count tb d sch = Reference.count xs (sch.getD v.schedule).selector v.numbers d := by
  unfold Reference.count
  rcases hf.shape with hp | hh
  · by_cases hd : d = .on ∨ d = .off ∨ d = .any
    · rw [known_good hd, hx.among_numbers hv _ _ hp, hp.count_eq hv (owns_getD_fine hf hs) hd]
    · rw [known_bad hd hp.numbers_ne]
      unfold Interval.count
      simp only [hp.not_void, Bool.false_eq_true, if_false, Interval.dutyIdx_bad hd]
  · rw [hh.numbers_eq, known_nil]
    unfold Interval.count
    rw [hh.void]; rfl

theorem Timeboard.ListedAs.workshifts :
    (v.workshifts tb d sch).map (fun ws => ws.map (fun w => w.loc)) = Reference.workshifts xs (sch.getD v.schedule).selector v.numbers d := by
  unfold Reference.workshifts
  rcases hf.shape with hp | hh
  · by_cases hd : d = .on ∨ d = .off ∨ d = .any
    · obtain ⟨ws, h1, h2, _⟩ := hf.workshifts_spec hv hs hd
      rw [known_good hd, hx.among_numbers hv _ _ hp, h1, ← h2]; rfl
    · rw [known_bad hd hp.numbers_ne]
      unfold Interval.workshifts
      simp only [hp.not_void, Bool.false_eq_true, if_false, Interval.dutyIdx_bad hd]; rfl
  · rw [hh.numbers_eq, known_nil]
    unfold Interval.workshifts
    rw [hh.void]; rfl

theorem Timeboard.ListedAs.nth (n : Int) :
    (v.nth tb n d sch).map (fun w => w.loc) = Reference.nth xs (sch.getD v.schedule).selector v.numbers n d := by
  unfold Reference.nth
  rcases hf.shape with hp | hh
  · by_cases hd : d = .on ∨ d = .off ∨ d = .any
    · rw [known_good hd, hx.among_numbers hv _ _ hp, hp.nth_eq hv (owns_getD_fine hf hs) hd, ← pyGet?_reverse]
      cases hg : pyGet? (tb.dutyPositions (sch.getD v.schedule).selector d v.lo v.hi) n with
      | none => rfl
      | some k =>
        have hm : k ∈ tb.dutyPositions (sch.getD v.schedule).selector d v.lo v.hi := by
          rw [pyGet?_reverse] at hg
          split at hg
          · exact List.mem_of_getElem? hg
          · exact List.mem_reverse.1 (List.mem_of_getElem? hg)
        obtain ⟨m1, m2, _⟩ := Timeboard.mem_dutyPositions.1 hm
        have := hp.lo_nonneg
        have := hp.hi_lt
        obtain ⟨w, d1, d2, _⟩ := Workshift.exists_of_range hv (some (sch.getD v.schedule)) (k := k) (by omega) (by omega)
        simp only [d1, Except.map, d2, orOut]
    · rw [known_bad hd hp.numbers_ne]
      unfold Interval.nth
      simp only [hp.not_void, Bool.false_eq_true, if_false, Interval.dutyIdx_bad hd]; rfl
  · rw [hh.numbers_eq, known_nil, among_nil]
    unfold Interval.nth
    rw [hh.void]
    simp only [if_true]
    split <;> rfl

theorem Timeboard.ListedAs.totalDuration :
    v.totalDuration tb d sch = Reference.totalDuration xs (sch.getD v.schedule).selector v.numbers d := by
  unfold Reference.totalDuration
  rcases hf.shape with hp | hh
  · by_cases hd : d = .on ∨ d = .off ∨ d = .any
    · rw [known_good hd, hx.among_numbers hv _ _ hp, hp.totalDuration_eq hv (owns_getD_fine hf hs) hd]
      congr 2
      apply List.map_congr_left
      intro k hk
      obtain ⟨m1, m2, _⟩ := Timeboard.mem_dutyPositions.1 hk
      have := hp.lo_nonneg
      have := hp.hi_lt
      obtain ⟨x, g1, _, _, _, _, g6⟩ := hx.get hv (k := k) (by omega) (by omega)
      unfold getInt
      rw [g1]
      simp [g6]
    · rw [known_bad hd hp.numbers_ne]
      unfold Interval.totalDuration
      simp only [hp.not_void, Bool.false_eq_true, if_false, Interval.dutyIdx_bad hd]
  · rw [hh.numbers_eq, known_nil]
    unfold Interval.totalDuration
    rw [hh.void]; rfl

end

/-- Labels and durations of workshifts in the list. -/
theorem Timeboard.ListedAs.labels (hx : tb.ListedAs xs) (hv : tb.Valid) : ∀ ks : List Int, (∀ k ∈ ks, 0 ≤ k ∧ k < tb.timeline.len) →
    ks.mapM (fun i => tb.timeline.label i) = .ok ((ks.filterMap (fun k => xs[k.toNat]?)).map Shift.label) ∧
    ks.map (fun k => tb.timeline.bnd (k + 1) - tb.timeline.bnd k) = (ks.filterMap (fun k => xs[k.toNat]?)).map Shift.duration
  | [], _ => ⟨rfl, rfl⟩
  | k :: ks, h => by
    obtain ⟨h0, h1⟩ := h k (by simp)
    obtain ⟨ih1, ih2⟩ := hx.labels hv ks (fun j hj => h j (by simp [hj]))
    obtain ⟨x, g1, g2, _, _, _, g6⟩ := hx.get hv h0 h1
    constructor
    · rw [List.mapM_cons, g2, ih1, List.filterMap_cons, g1]; rfl
    · rw [List.map_cons, ih2, List.filterMap_cons, g1, List.map_cons, g6]

theorem refSumNums_eq (num : L → Option Rat) : ∀ ls : List (Shift L), sumNums num (ls.map Shift.label) =
    if ls.any (fun x => (num x.label).isNone) then .error .typeError else .ok (ls.map (fun x => (num x.label).getD 0)).sum
  | [] => rfl
  | x :: ls => by
    rw [List.map_cons]
    unfold sumNums
    rw [refSumNums_eq num ls]
    cases hn : num x.label with
    | none => simp [hn]
    | some q =>
      simp only [List.any_cons, hn, Option.isNone_some, Bool.false_or, List.map_cons, List.sum_cons, Option.getD_some]
      split <;> rename_i h
      · split at h <;> simp_all
      · split at h <;> simp_all
      · simp_all

theorem sum_durations_cast : ∀ ls : List (Shift L), (((ls.map Shift.duration).sum : Int) : Rat) = (ls.map (fun x => (x.duration : Rat))).sum
  | [] => rfl
  | x :: ls => by
    simp only [List.map_cons, List.sum_cons, ← sum_durations_cast ls, Rat.intCast_add]

theorem Timeboard.ListedAs.worktime (hx : tb.ListedAs xs) (hv : tb.Valid) {v : Interval L} (hf : v.Fine tb) {sch : Option (Schedule L)}
    (hs : tb.OwnsOpt sch) (num : L → Option Rat) (d : Duty) :
    v.worktime tb num d sch = Reference.worktime xs tb.worktimeSource num (sch.getD v.schedule).selector v.numbers d := by
  unfold Reference.worktime
  rcases hf.shape with hp | hh
  · by_cases hd : d = .on ∨ d = .off ∨ d = .any
    · have ho := owns_getD_fine hf hs
      simp only
      rw [known_good hd, hx.among_numbers hv _ _ hp]
      have hr : ∀ k ∈ tb.dutyPositions (sch.getD v.schedule).selector d v.lo v.hi, 0 ≤ k ∧ k < tb.timeline.len := by
        intro k hk
        obtain ⟨m1, m2, _⟩ := Timeboard.mem_dutyPositions.1 hk
        have := hp.lo_nonneg
        have := hp.hi_lt
        omega
      obtain ⟨l1, l2⟩ := hx.labels hv _ hr
      unfold Interval.worktime
      simp only [hp.not_void, Bool.false_eq_true, if_false]
      rcases hv.source with hsrc | hsrc
      · have hne : ¬ (tb.worktimeSource = "labels") := by rw [hsrc]; decide
        rw [if_neg hne, if_pos hsrc, if_pos hsrc, hp.totalDuration_eq hv ho hd, l2]
        simp only [Except.map, sum_durations_cast]
      · have hne : ¬ (tb.worktimeSource = "duration") := by rw [hsrc]; decide
        rw [if_pos hsrc, if_neg hne]
        unfold Interval.sumLabels
        rcases hp.dutyIdx_spec hv ho hd with ⟨idx, e1, e2⟩ | ⟨idx, a, b, e1, e2, e3, e4, e5⟩
        · rw [e1, e2]; rfl
        · rw [e1]
          simp only
          rw [e5, l1]
          exact refSumNums_eq num _
    · rw [known_bad hd hp.numbers_ne]
      unfold Interval.worktime Interval.totalDuration Interval.sumLabels
      simp only [hp.not_void, Bool.false_eq_true, if_false, Interval.dutyIdx_bad hd]
      rcases hv.source with hsrc | hsrc <;> simp [hsrc, Except.map]
  · rw [hh.numbers_eq]
    simp only
    rw [known_nil, among_nil]
    unfold Interval.worktime
    rw [hh.void]
    simp

theorem Interval.Fine.overlap_numbers {u v : Interval L} (hu : u.Fine tb) (hv : v.Fine tb) {sch : Option (Schedule L)} (hs : tb.OwnsOpt sch) :
    ∃ x, u.overlap tb v sch = .ok x ∧ x.Fine tb ∧ x.schedule = sch.getD u.schedule ∧ x.numbers = Reference.overlap u.numbers v.numbers := by
  obtain ⟨x, h1, h2, h3, h4, _⟩ := hu.overlap_ok hv hs
  refine ⟨x, h1, h2, h3, ?_⟩
  have hsorted : ∀ y : Interval L, y.numbers.Pairwise (· < ·) := by
    intro y
    unfold Interval.numbers
    split
    · exact List.Pairwise.nil
    · exact pairwise_intRange _ _
  apply eq_of_pairwise_lt (hsorted x) ((hsorted u).filter _)
  intro k
  rw [h2.mem_numbers, h4, List.mem_filter, hu.mem_numbers, decide_eq_true_eq, hv.mem_numbers]

theorem Timeboard.ListedAs.portion (hx : tb.ListedAs xs) (hv : tb.Valid) {u v : Interval L} (hu : u.Fine tb) (hf : v.Fine tb)
    {sch : Option (Schedule L)} (hs : tb.OwnsOpt sch) (d : Duty) :
    u.whatPortionOf tb v d sch = Reference.portion xs (sch.getD u.schedule).selector u.numbers v.numbers d := by
  have hos : tb.OwnsOpt (some (sch.getD u.schedule)) := by intro y hy; cases hy; exact owns_getD_fine hu hs
  unfold Interval.whatPortionOf Reference.portion
  rcases hu.shape with hp | hh
  · obtain ⟨x, h1, h2, h3, h4⟩ := hu.overlap_numbers hf hos
    simp only [Option.getD_some] at h3
    have hc := hx.count hv h2 (sch := none) (by intro y hy; cases hy) d
    simp only [Option.getD_none, h3, h4] at hc
    have hc2 := hx.count hv hf hos d
    simp only [Option.getD_some] at hc2
    rw [hp.not_void]
    simp only [Bool.false_eq_true, if_false, h1, bind, Except.bind, hc, hc2]
    unfold Reference.count
    by_cases hd : d = .on ∨ d = .off ∨ d = .any
    · simp only [known_good hd]
      have hle : 0 < (among xs (sch.getD u.schedule).selector d (Reference.overlap u.numbers v.numbers)).length →
          0 < (among xs (sch.getD u.schedule).selector d v.numbers).length := by
        intro hpos
        obtain ⟨k, hk⟩ := List.exists_mem_of_length_pos hpos
        obtain ⟨k1, k2⟩ := List.mem_filter.1 hk
        have k3 := (List.mem_filter.1 k1).2
        exact List.length_pos_of_mem (List.mem_filter.2 ⟨by simpa using k3, k2⟩)
      split
      · rename_i h0
        have h0' : (among xs (sch.getD u.schedule).selector d (Reference.overlap u.numbers v.numbers)).length = 0 := by omega
        rw [h0']
        simp [pure, Except.pure, Rat.div_def]
      · rename_i h0
        unfold pyDiv
        rw [if_neg (by omega)]
        rfl
    · by_cases hm : Reference.overlap u.numbers v.numbers = []
      · rw [hm, known_nil, known_nil, among_nil]
        simp [pure, Except.pure, Rat.div_def]
      · rw [known_bad hd hm, known_bad hd hm]
  · rw [hh.void, hh.numbers_eq]
    have : Reference.overlap [] v.numbers = [] := rfl
    rw [this, known_nil, among_nil]
    simp [Rat.div_def]

/-! ### counting periods -/

theorem Timeboard.ListedAs.unfit_iff (hx : tb.ListedAs xs) (hv : tb.Valid) (p : Period) :
    (unfit xs p = none ↔ FitPeriod tb p) ∧ ∀ e, unfit xs p = some e ↔ UnfitError tb p e := by
  have hin := hx.inside_iff hv p
  have hnil := hx.referenced_nil_iff hv (p := p)
  unfold unfit FitPeriod UnfitError
  by_cases h1 : tb.Within p.startTime ∧ tb.Within p.endTime
  · rw [if_pos (hin.2 h1)]
    by_cases h2 : ∀ k, ¬ tb.RefIn p k
    · rw [if_pos (hnil.2 h2)]
      refine ⟨⟨fun h => (by cases h), fun h => ?_⟩, fun e => ⟨?_, ?_⟩⟩
      · obtain ⟨k, hk⟩ := h.1 h1; exact absurd hk (h2 k)
      · rintro ⟨⟩; exact .inl ⟨rfl, h1, h2⟩
      · rintro (⟨rfl, _⟩ | ⟨_, h, _⟩)
        · rfl
        · exact absurd h1 h
    · rw [if_neg (fun h => h2 (hnil.1 h))]
      have hex : ∃ k, tb.RefIn p k := Classical.not_forall_not.1 h2
      refine ⟨⟨fun _ => ⟨fun _ => hex, fun _ => h1⟩, fun _ => rfl⟩, fun e => ⟨fun h => (by cases h), ?_⟩⟩
      rintro (⟨rfl, _, h⟩ | ⟨_, h, _⟩)
      · exact absurd h h2
      · exact absurd h1 h
  · rw [if_neg (fun h => h1 (hin.1 h))]
    by_cases h2 : ∀ k, ¬ tb.RefIn p k
    · rw [if_pos (hnil.2 h2)]
      refine ⟨⟨fun _ => ⟨fun h => absurd h h1, fun ⟨k, hk⟩ => absurd hk (h2 k)⟩, fun _ => rfl⟩, fun e => ⟨fun h => (by cases h), ?_⟩⟩
      rintro (⟨_, h, _⟩ | ⟨_, _, k, hk⟩)
      · exact absurd h h1
      · exact absurd hk (h2 k)
    · rw [if_neg (fun h => h2 (hnil.1 h))]
      have hex : ∃ k, tb.RefIn p k := Classical.not_forall_not.1 h2
      refine ⟨⟨fun h => (by cases h), fun h => absurd (h.2 hex) h1⟩, fun e => ⟨?_, ?_⟩⟩
      · rintro ⟨⟩; exact .inr ⟨rfl, h1, hex⟩
      · rintro (⟨_, h, _⟩ | ⟨rfl, _⟩)
        · exact absurd h h1
        · rfl

/-- The loop stops at the first unfit period. -/
theorem Timeboard.ListedAs.periodLoop_error (hx : tb.ListedAs xs) (h : tb.Reachable) {s : Schedule L} (ho : tb.Owns s) {freq : Freq} (hm : freq.mult = 1)
    {duty : Duty} (hd : duty = .on ∨ duty = .off ∨ duty = .any) {e : Err} : ∀ os : List Int,
    os.findSome? (fun o => unfit xs ⟨freq, o⟩) = some e → periodLoop tb freq duty s os = .error e
  | [], he => by cases he
  | o :: os, he => by
    obtain ⟨u1, u2⟩ := hx.unfit_iff h.valid ⟨freq, o⟩
    have ih := hx.periodLoop_error h ho hm hd (e := e) os
    rw [List.findSome?_cons] at he
    rcases periodEntry_cases h ho hm hd o with ⟨f1, v, c, g1, g2, g3⟩ | ⟨f1, g1, g2⟩ | ⟨f1, g1⟩ | ⟨f1, g1⟩
    · rw [u1.2 f1] at he
      unfold periodLoop; rw [g1]; simp only [g2]
      rw [ih he]; rfl
    · rw [u1.2 f1] at he
      unfold periodLoop; rw [g1]; simp only
      rw [ih he]; rfl
    · rw [(u2 _).2 f1] at he
      cases he
      unfold periodLoop; rw [g1]
    · rw [(u2 _).2 f1] at he
      cases he
      unfold periodLoop; rw [g1]

theorem Interval.Proper.countPeriods_of_error (hv : tb.Valid) {v : Interval L} (hp : v.Proper tb) {sch : Option (Schedule L)}
    (ho : tb.Owns (sch.getD v.schedule)) {freq : Freq} (hsup : supportedPeriod freq = true) {duty : Duty} (hd : duty = .on ∨ duty = .off ∨ duty = .any)
    {a b : Time} (ha : v.startTime tb = .ok (some a)) (hb : v.endTime tb = .ok (some b)) (hab : a ≤ b)
    (hne : tb.dutyPositions (sch.getD v.schedule).selector duty v.lo v.hi ≠ []) {e : Err}
    (he : periodLoop tb freq duty (sch.getD v.schedule) (intRange (freq.base.ordOf a) (freq.base.ordOf b + 1)) = .error e) :
    v.countPeriods tb freq duty sch = .error e := by
  have hlo := hp.lo_nonneg
  have hhi := hp.hi_lt
  have hm := supportedPeriod_mult hsup
  obtain ⟨F, hF, hords, _⟩ := Timeboard.Valid.periodIndex hm hab
  generalize hs : sch.getD v.schedule = s at *
  have hn0 := hp.nth_eq hv (sch := some s) (by exact ho) hd 0
  have hn1 := hp.nth_eq hv (sch := some s) (by exact ho) hd (-1)
  simp only [Option.getD_some] at hn0 hn1
  have hget : ∀ n : Int, n = 0 ∨ n = -1 → ∃ w t, (match pyGet? (tb.dutyPositions s.selector duty v.lo v.hi) n with
      | none => (Except.error .outOfBounds : Except Err (Workshift L))
      | some k => Workshift.new tb k (some s)) = .ok w ∧ w.toTimestamp tb = .ok t := by
    intro n hn
    have hpos := List.length_pos_iff.2 hne
    obtain ⟨k, hk⟩ : ∃ k, pyGet? (tb.dutyPositions s.selector duty v.lo v.hi) n = some k := by
      unfold pyGet?
      rcases hn with rfl | rfl
      · rw [if_pos (by decide)]
        exact ⟨_, List.getElem?_eq_getElem hpos⟩
      · rw [if_neg (by decide), if_pos (by omega)]
        exact ⟨_, List.getElem?_eq_getElem (by omega)⟩
    have hm : k ∈ tb.dutyPositions s.selector duty v.lo v.hi := by
      rw [pyGet?_reverse] at hk
      split at hk
      · exact List.mem_of_getElem? hk
      · exact List.mem_reverse.1 (List.mem_of_getElem? hk)
    obtain ⟨m1, m2, _⟩ := Timeboard.mem_dutyPositions.1 hm
    obtain ⟨w, c0, _, _, _, _, _, t0, _⟩ := Workshift.exists_of_range hv (some s) (k := k) (by omega) (by omega)
    exact ⟨w, _, by rw [hk]; exact c0, t0⟩
  obtain ⟨w0, t0, p1, p2⟩ := hget 0 (.inl rfl)
  obtain ⟨w1, t1, q1, q2⟩ := hget (-1) (.inr rfl)
  replace hn0 := hn0.trans p1
  replace hn1 := hn1.trans q1
  unfold Interval.countPeriods Interval.first Interval.last Interval.countPeriodsBody
  simp only [hp.not_void, hsup, ha, hb, hF, hs, timeOrTypeError, Bool.false_eq_true, if_false, Bool.not_true, Bind.bind, Except.bind, hn0, hn1,
    p2, q2, hords, he]

theorem Timeboard.ListedAs.countPeriods (hx : tb.ListedAs xs) (h : tb.Reachable) {v : Interval L} (hf : v.Fine tb) {sch : Option (Schedule L)}
    (hs : tb.OwnsOpt sch) (freq : Freq) (d : Duty) :
    v.countPeriods tb freq d sch = Reference.countPeriods xs (sch.getD v.schedule).selector v.numbers freq d := by
  have hv := h.valid
  unfold Reference.countPeriods
  rcases hf.shape with hp | hh
  · have hlo := hp.lo_nonneg
    have hhi := hp.hi_lt
    have hlohi := hp.lo_le_hi
    have e1 : v.numbers.head? = some v.lo := by rw [hp.numbers_eq, intRange_cons (by omega)]; rfl
    have e2 : v.numbers.getLast? = some v.hi := by
      rw [hp.numbers_eq, ← intRange_append (a := v.lo) (b := v.hi) (c := v.hi + 1) (by omega) (by omega), intRange_cons (a := v.hi) (by omega),
        intRange_empty (a := v.hi + 1) (by omega)]
      simp
    rw [e1, e2]
    simp only
    by_cases hsup : freq ∈ countable
    · rw [if_neg (fun h => h hsup)]
      have hsup' := (supportedPeriod_iff freq).2 hsup
      have hm := supportedPeriod_mult hsup'
      obtain ⟨x, g1, _, g3, _⟩ := hx.get hv (k := v.lo) hlo (by omega)
      obtain ⟨y, k1, _, _, k4, _⟩ := hx.get hv (k := v.hi) (by omega) hhi
      have ea : getInt xs Shift.start v.lo = tb.timeline.frame.unitStart (tb.timeline.bnd v.lo) := by unfold getInt; rw [g1]; simpa using g3
      have eb : getInt xs Shift.stop v.hi = tb.timeline.frame.unitStart (tb.timeline.bnd (v.hi + 1)) - 1 := by unfold getInt; rw [k1]; simpa using k4
      have ha : v.startTime tb = .ok (some (getInt xs Shift.start v.lo)) := by
        rw [ea]
        unfold Interval.startTime
        rw [hp.not_void, hv.wf.wsStart_eq hlo (by omega)]; rfl
      have hb : v.endTime tb = .ok (some (getInt xs Shift.stop v.hi)) := by
        rw [eb]
        unfold Interval.endTime
        rw [hp.not_void, hv.wf.wsEnd_eq (by omega) hhi]; rfl
      by_cases hd : d = .on ∨ d = .off ∨ d = .any
      · have ho := owns_getD_fine hf hs
        rw [known_good hd]
        generalize getInt xs Shift.start v.lo = a at *
        generalize getInt xs Shift.stop v.hi = b at *
        generalize hsel : sch.getD v.schedule = s at *
        have hra : ∀ k, v.lo ≤ k → k ≤ v.hi → a ≤ tb.timeline.refTime k ∧ tb.timeline.refTime k ≤ b := by
          intro k h1 h2
          obtain ⟨q1, q2⟩ := hv.wf.refTime_within (k := k) (by omega) (by omega)
          have z1 : tb.timeline.frame.unitStart (tb.timeline.bnd v.lo) ≤ tb.timeline.frame.unitStart (tb.timeline.bnd k) :=
            Frame.unitStart_le_iff.2 (hv.wf.bnd_le_bnd (by omega) h1 (by omega))
          have z2 : tb.timeline.frame.unitStart (tb.timeline.bnd (k + 1)) ≤ tb.timeline.frame.unitStart (tb.timeline.bnd (v.hi + 1)) :=
            Frame.unitStart_le_iff.2 (hv.wf.bnd_le_bnd (by omega) (by omega) (by omega))
          omega
        have hab : a ≤ b := by have := hra v.lo (by omega) hlohi; omega
        have hcp := hp.countPeriods_eq h (sch := sch) (by rw [hsel]; exact ho) hsup' hd ha hb
        rw [hsel] at hcp
        rw [hx.among_numbers hv _ _ hp]
        rcases hcp with ⟨c1, c2⟩ | ⟨c1, c2, c3⟩ | ⟨c1, o, e, c2, c3, c4, c5⟩
        · rw [c2, if_pos c1]
        · rw [c3, if_neg c1]
          have hnone : (intRange (freq.base.ordOf a) (freq.base.ordOf b + 1)).findSome? (fun o => unfit xs ⟨freq, o⟩) = none := by
            rw [List.findSome?_eq_none_iff]
            intro o ho'
            rw [mem_intRange] at ho'
            exact (hx.unfit_iff hv _).1.2 (c2 o (by omega) (by omega))
          simp only [hnone]
          congr 1
          rw [Timeboard.weight_eq_sum (os := intRange (freq.base.ordOf a) (freq.base.ordOf b + 1)) (nodup_intRange _ _) (by
            intro k hk
            obtain ⟨m1, m2, _⟩ := Timeboard.mem_dutyPositions.1 hk
            obtain ⟨r1, r2⟩ := hra k m1 m2
            rw [mem_intRange]
            have := freq.base.ordOf_mono r1
            have := freq.base.ordOf_mono r2
            unfold Timeboard.per
            omega)]
          congr 1
          apply List.map_congr_left
          intro o _
          have hmem : ∀ k, 0 ≤ k → k < tb.timeline.len → (k ∈ referenced xs ⟨freq, o⟩ ↔ tb.per freq k = o) := by
            intro k q1 q2
            rw [hx.mem_referenced hv, hv.refIn_per hm]
            exact ⟨fun h => h.2.2, fun h => ⟨q1, q2, h⟩⟩
          have n1 : (Reference.overlap (tb.dutyPositions s.selector d v.lo v.hi) (referenced xs ⟨freq, o⟩)).length = tb.num s d freq v.lo v.hi o := by
            unfold Reference.overlap Timeboard.num
            congr 1
            apply List.filter_congr
            intro k hk
            obtain ⟨m1, m2, _⟩ := Timeboard.mem_dutyPositions.1 hk
            rw [decide_eq_decide]
            exact hmem k (by omega) (by omega)
          have n2 : (Reference.overlap (having xs s.selector d) (referenced xs ⟨freq, o⟩)).length = tb.den s d freq o := by
            rw [hx.having_eq hv]
            unfold Reference.overlap Timeboard.den Timeboard.allDuty Timeboard.allPositions
            congr 1
            apply List.filter_congr
            intro k hk
            obtain ⟨m1, m2, _⟩ := Timeboard.mem_dutyPositions.1 hk
            rw [decide_eq_decide]
            exact hmem k (by omega) (by omega)
          rw [n1, n2, Rat.div_def, Rat.div_def, Rat.one_mul]
        · rw [if_neg c1]
          cases hfs : (intRange (freq.base.ordOf a) (freq.base.ordOf b + 1)).findSome? (fun o => unfit xs ⟨freq, o⟩) with
          | none =>
            rw [List.findSome?_eq_none_iff] at hfs
            have := hfs o (by rw [mem_intRange]; omega)
            rw [((hx.unfit_iff hv _).2 e).2 c4] at this
            cases this
          | some e' =>
            simp only
            exact hp.countPeriods_of_error hv (sch := sch) (by rw [hsel]; exact ho) hsup' hd ha hb hab (by rw [hsel]; exact c1)
              (by rw [hsel]; exact hx.periodLoop_error h ho hm hd _ hfs)
      · rw [known_bad hd hp.numbers_ne]
        have hr := hv.wf.refTime_within (k := v.lo) (by omega) (by omega)
        have z2 : tb.timeline.frame.unitStart (tb.timeline.bnd (v.lo + 1)) ≤ tb.timeline.frame.unitStart (tb.timeline.bnd (v.hi + 1)) :=
          Frame.unitStart_le_iff.2 (hv.wf.bnd_le_bnd (by omega) (by omega) (by omega))
        obtain ⟨F, hF, _⟩ := Timeboard.Valid.periodIndex hm (a := getInt xs Shift.start v.lo) (b := getInt xs Shift.stop v.hi) (by omega)
        unfold Interval.countPeriods Interval.first Interval.last Interval.nth
        simp only [hp.not_void, hsup', ha, hb, hF, timeOrTypeError, Bool.false_eq_true, if_false, Bool.not_true, Bind.bind, Except.bind,
          Interval.dutyIdx_bad hd]
        rfl
    · rw [if_pos hsup]
      unfold Interval.countPeriods
      have : supportedPeriod freq = false := by
        cases hc : supportedPeriod freq with
        | false => rfl
        | true => exact absurd ((supportedPeriod_iff freq).1 hc) hsup
      simp [hp.not_void, this]
  · rw [hh.numbers_eq]
    unfold Interval.countPeriods
    rw [hh.void]; rfl

end TB
