import Verif.Props.GetInterval
import Verif.Lemmas.Ratio
import Verif.Lemmas.Layout4
/-! Laws of `count_periods`. -/
namespace TB
variable {L : Type}

/-! ### Sums by group -/

theorem sum_zero_of_ne {os : List Int} {x : Int} {w : Int → Rat} (h : x ∉ os) :
    (os.map (fun o => if x = o then w o else 0)).sum = 0 := by
  induction os with
  | nil => rfl
  | cons o os ih =>
    simp only [List.mem_cons, not_or] at h
    simp only [List.map_cons, List.sum_cons, if_neg h.1, ih h.2]
    grind

theorem sum_pick {os : List Int} {x : Int} {w : Int → Rat} (hn : os.Nodup) (h : x ∈ os) :
    (os.map (fun o => if x = o then w o else 0)).sum = w x := by
  induction os with
  | nil => simp at h
  | cons o os ih =>
    rw [List.nodup_cons] at hn
    simp only [List.map_cons, List.sum_cons]
    by_cases hx : x = o
    · subst hx
      rw [if_pos rfl, sum_zero_of_ne hn.1]
      grind
    · rw [if_neg hx, ih hn.2 (by simpa [hx] using h)]
      grind

theorem sum_map_add (os : List Int) (f g : Int → Rat) : (os.map (fun o => f o + g o)).sum = (os.map f).sum + (os.map g).sum := by
  induction os with
  | nil => simp only [List.map_nil, List.sum_nil]; grind
  | cons o os ih => simp only [List.map_cons, List.sum_cons, ih]; grind

/-- Weights which depend on the group only can be summed up group by group. -/
theorem sum_by_groups (l : List Int) (g : Int → Int) (w : Int → Rat) {os : List Int} (hn : os.Nodup) (h : ∀ k ∈ l, g k ∈ os) :
    (l.map (fun k => w (g k))).sum = (os.map (fun o => ((l.filter (fun k => decide (g k = o))).length : Rat) * w o)).sum := by
  induction l with
  | nil =>
    have : ∀ os : List Int, (os.map (fun o => (([] : List Int).filter (fun k => decide (g k = o))).length * w o)).sum = (0 : Rat) := by
      intro os
      induction os with
      | nil => rfl
      | cons o os ih => rw [List.map_cons, List.sum_cons, ih]; simp only [List.filter_nil, List.length_nil]; grind
    rw [this]; rfl
  | cons k l ih =>
    have e : (fun o => (((k :: l).filter (fun k => decide (g k = o))).length : Rat) * w o) =
        (fun o => (if g k = o then w o else 0) + ((l.filter (fun k => decide (g k = o))).length : Rat) * w o) := by
      funext o
      by_cases hg : g k = o
      · rw [List.filter_cons_of_pos (by simpa using hg), if_pos hg, List.length_cons]
        have : ((((l.filter (fun k => decide (g k = o))).length + 1 : Nat)) : Rat) = ((l.filter (fun k => decide (g k = o))).length : Rat) + 1 := by
          exact_mod_cast rfl
        rw [this]; grind
      · rw [List.filter_cons_of_neg (by simpa using hg), if_neg hg]; grind
    rw [e, sum_map_add, sum_pick hn (h k (by simp)), ← ih (fun x hx => h x (by simp [hx]))]
    rfl

/-! ### Periods of workshifts -/

/-- The ordinal of the calendar period which contains the reference time of the workshift. -/
def Timeboard.per (tb : Timeboard L) (freq : Freq) (k : Int) : Int := freq.base.ordOf (tb.timeline.refTime k)

/-- Positions with the duty, on the whole timeboard. -/
def Timeboard.allDuty (tb : Timeboard L) (s : Schedule L) (duty : Duty) : List Int :=
  tb.dutyPositions s.selector duty 0 (tb.timeline.len - 1)

/-- Number of workshifts with the duty referenced in the period. -/
def Timeboard.den (tb : Timeboard L) (s : Schedule L) (duty : Duty) (freq : Freq) (o : Int) : Nat :=
  ((tb.allDuty s duty).filter (fun k => decide (tb.per freq k = o))).length

theorem Timeboard.Valid.refIn_per {tb : Timeboard L} (hv : tb.Valid) {freq : Freq} (hm : freq.mult = 1) {o k : Int} :
    tb.RefIn ⟨freq, o⟩ k ↔ (0 ≤ k ∧ k < tb.timeline.len ∧ tb.per freq k = o) := by
  rw [hv.refIn_iff]
  unfold Timeboard.per
  rw [freq.base.ordOf_eq_iff]
  simp only [Period.startTime, Period.endTime, hm, Int.natCast_one]
  constructor
  · rintro ⟨h1, h2, h3, h4⟩; exact ⟨h1, h2, h3, by omega⟩
  · rintro ⟨h1, h2, h3, h4⟩; exact ⟨h1, h2, h3, by omega⟩

theorem Timeboard.Valid.per_mono {tb : Timeboard L} (hv : tb.Valid) (freq : Freq) {j k : Int} (h0 : 0 ≤ j) (h1 : j ≤ k) (h2 : k < tb.timeline.len) :
    tb.per freq j ≤ tb.per freq k := by
  rcases Int.lt_or_eq_of_le h1 with h | h
  · exact freq.base.ordOf_mono (Int.le_of_lt (hv.wf.refTime_lt h0 h h2))
  · rw [h]; exact Int.le_refl _

theorem Timeboard.dutyPositions_eq_filter {tb : Timeboard L} {s : Schedule L} {duty : Duty} {lo hi : Int} (h0 : 0 ≤ lo) (h1 : hi < tb.timeline.len) :
    tb.dutyPositions s.selector duty lo hi = (tb.allDuty s duty).filter (fun k => decide (lo ≤ k) && decide (k ≤ hi)) := by
  unfold Timeboard.allDuty
  rw [Timeboard.dutyPositions_sub h0 (by omega)]

theorem Timeboard.mem_allDuty {tb : Timeboard L} {s : Schedule L} {duty : Duty} {k : Int} (h : k ∈ tb.allDuty s duty) :
    0 ≤ k ∧ k < tb.timeline.len := by
  have := Timeboard.mem_dutyPositions.1 h
  omega

/-- The periods denoted by an entry of the list made by the loop. -/
def EntryOk (tb : Timeboard L) (freq : Freq) (duty : Duty) (s : Schedule L) (o : Int) : Option (Interval L × Int) → Prop
  | none => (∀ k, ¬ tb.RefIn ⟨freq, o⟩ k) ∧ ¬ (tb.Within (Period.startTime ⟨freq, o⟩) ∧ tb.Within (Period.endTime ⟨freq, o⟩))
  | some (v, c) => v.Proper tb ∧ (∀ k, (v.lo ≤ k ∧ k ≤ v.hi) ↔ tb.RefIn ⟨freq, o⟩ k) ∧ c = tb.den s duty freq o

def EntryList (tb : Timeboard L) (freq : Freq) (duty : Duty) (s : Schedule L) : List Int → List (Option (Interval L × Int)) → Prop
  | [], [] => True
  | o :: os, e :: es => EntryOk tb freq duty s o e ∧ EntryList tb freq duty s os es
  | _, _ => False

/-- The period is fit for counting: either completely on the timeboard and not empty, or empty. -/
def FitPeriod (tb : Timeboard L) (p : Period) : Prop :=
  (tb.Within p.startTime ∧ tb.Within p.endTime) ↔ ∃ k, tb.RefIn p k

/-- Which error an unfit period causes. -/
def UnfitError (tb : Timeboard L) (p : Period) (e : Err) : Prop :=
  (e = .unacceptablePeriod ∧ (tb.Within p.startTime ∧ tb.Within p.endTime) ∧ ∀ k, ¬ tb.RefIn p k) ∨
  (e = .partialOutOfBounds ∧ ¬ (tb.Within p.startTime ∧ tb.Within p.endTime) ∧ ∃ k, tb.RefIn p k)

theorem UnfitError.unfit {tb : Timeboard L} {p : Period} {e : Err} (h : UnfitError tb p e) : ¬ FitPeriod tb p := by
  rintro hf
  rcases h with ⟨_, h1, h2⟩ | ⟨_, h1, h2⟩
  · obtain ⟨k, hk⟩ := hf.1 h1; exact h2 k hk
  · exact h1 (hf.2 h2)

theorem periodEntry_cases {tb : Timeboard L} (h : tb.Reachable) {s : Schedule L} (ho : tb.Owns s) {freq : Freq} (hm : freq.mult = 1) {duty : Duty}
    (hd : duty = .on ∨ duty = .off ∨ duty = .any) (o : Int) :
    (FitPeriod tb ⟨freq, o⟩ ∧ (∃ v c, tb.getInterval (some (.period ⟨freq, o⟩)) none none false "11" (some s) = .ok v ∧
        v.count tb duty (some s) = .ok c ∧ EntryOk tb freq duty s o (some (v, c)))) ∨
    (FitPeriod tb ⟨freq, o⟩ ∧ tb.getInterval (some (.period ⟨freq, o⟩)) none none false "11" (some s) = .error .outOfBounds ∧
        EntryOk tb freq duty s o none) ∨
    (UnfitError tb ⟨freq, o⟩ .unacceptablePeriod ∧
        tb.getInterval (some (.period ⟨freq, o⟩)) none none false "11" (some s) = .error .voidInterval) ∨
    (UnfitError tb ⟨freq, o⟩ .partialOutOfBounds ∧
        tb.getInterval (some (.period ⟨freq, o⟩)) none none false "11" (some s) = .error .partialOutOfBounds) := by
  have hv := h.valid
  have hos : tb.OwnsOpt (some s) := by intro x hx; cases hx; exact ho
  have hpr : PeriodRef (.period ⟨freq, o⟩) none ⟨freq, o⟩ := .inl ⟨rfl, rfl⟩
  unfold FitPeriod
  by_cases hw : tb.Within (Period.startTime ⟨freq, o⟩) ∧ tb.Within (Period.endTime ⟨freq, o⟩)
  · obtain ⟨c1, c2⟩ := C34_by_period h hos false hpr hw.1 hw.2
    by_cases hr : ∃ k, tb.RefIn ⟨freq, o⟩ k
    · left
      obtain ⟨v, g1, g2, g3, g4, g5⟩ := c1 hr
      have hf := g2.fine hv
      have hp : v.Proper tb := by
        rcases hf.shape with hp | hh
        · exact hp
        · rw [hh.void] at g3; cases g3
      have hin : ∀ k, (v.lo ≤ k ∧ k ≤ v.hi) ↔ tb.RefIn ⟨freq, o⟩ k := by
        intro k; exact ((hf.contains_iff hv k).symm.trans (g5 k))
      refine ⟨⟨fun _ => hr, fun _ => hw⟩, v, _, g1, hf.count_eq hv hos hd, hp, hin, ?_⟩
      have hlo := hp.lo_nonneg
      have hhi := hp.hi_lt
      simp only [Option.getD_some]
      unfold Timeboard.den
      congr 2
      rw [Timeboard.dutyPositions_eq_filter hlo hhi]
      apply List.filter_congr
      intro k hk
      obtain ⟨k0, k1⟩ := Timeboard.mem_allDuty hk
      have := hin k
      rw [hv.refIn_per hm] at this
      by_cases hc : tb.per freq k = o
      · have := this.2 ⟨k0, k1, hc⟩
        simp [hc, this.1, this.2]
      · have : ¬ (v.lo ≤ k ∧ k ≤ v.hi) := fun hx => hc (this.1 hx).2.2
        simp only [hc, decide_false]
        simpa using this
    · right; right; left
      exact ⟨.inl ⟨rfl, hw, fun k hk => hr ⟨k, hk⟩⟩, c2 (fun k hk => hr ⟨k, hk⟩)⟩
  · obtain ⟨c1, c2⟩ := C35_clipping h hos hpr hw
    by_cases hr : ∃ k, tb.RefIn ⟨freq, o⟩ k
    · right; right; right
      exact ⟨.inr ⟨rfl, hw, hr⟩, (c1 hr).2 "11" closedOk_11⟩
    · right; left
      have hr' : ∀ k, ¬ tb.RefIn ⟨freq, o⟩ k := fun k hk => hr ⟨k, hk⟩
      exact ⟨⟨fun x => absurd x hw, fun x => absurd x hr⟩, c2 hr' false "11" closedOk_11, hr', hw⟩

theorem periodLoop_spec {tb : Timeboard L} (h : tb.Reachable) {s : Schedule L} (ho : tb.Owns s) {freq : Freq} (hm : freq.mult = 1) {duty : Duty}
    (hd : duty = .on ∨ duty = .off ∨ duty = .any) (os : List Int) :
    ((∀ o ∈ os, FitPeriod tb ⟨freq, o⟩) ∧ ∃ es, periodLoop tb freq duty s os = .ok es ∧ EntryList tb freq duty s os es) ∨
    (∃ o ∈ os, ∃ e, UnfitError tb ⟨freq, o⟩ e ∧ periodLoop tb freq duty s os = .error e) := by
  induction os with
  | nil => exact .inl ⟨by simp, [], rfl, trivial⟩
  | cons o os ih =>
    rcases periodEntry_cases h ho hm hd o with ⟨f1, v, c, g1, g2, g3⟩ | ⟨f1, g1, g2⟩ | ⟨f1, g1⟩ | ⟨f1, g1⟩
    · rcases ih with ⟨a1, es, a2, a3⟩ | ⟨o', b1, e, b2, b3⟩
      · left
        refine ⟨by simpa using ⟨f1, a1⟩, some (v, c) :: es, ?_, g3, a3⟩
        unfold periodLoop; rw [g1]; simp only [g2, a2]; rfl
      · right
        refine ⟨o', by simp [b1], e, b2, ?_⟩
        unfold periodLoop; rw [g1]; simp only [g2]
        rw [b3]; simp [Except.map]
    · rcases ih with ⟨a1, es, a2, a3⟩ | ⟨o', b1, e, b2, b3⟩
      · left
        refine ⟨by simpa using ⟨f1, a1⟩, none :: es, ?_, g2, a3⟩
        unfold periodLoop; rw [g1]; simp only [a2]; rfl
      · right
        refine ⟨o', by simp [b1], e, b2, ?_⟩
        unfold periodLoop; rw [g1]
        simp only [b3]; simp [Except.map]
    · right
      refine ⟨o, by simp, _, f1, ?_⟩
      unfold periodLoop; rw [g1]
    · right
      refine ⟨o, by simp, _, f1, ?_⟩
      unfold periodLoop; rw [g1]

theorem EntryList.get {tb : Timeboard L} {freq : Freq} {duty : Duty} {s : Schedule L} : ∀ {os : List Int} {es : List (Option (Interval L × Int))},
    EntryList tb freq duty s os es → ∀ {i : Nat} {o : Int}, os[i]? = some o → ∃ e, es[i]? = some e ∧ EntryOk tb freq duty s o e := by
  intro os
  induction os with
  | nil => intro es h i o hi; simp at hi
  | cons o' os ih =>
    intro es h i o hi
    cases es with
    | nil => exact h.elim
    | cons e es =>
      obtain ⟨h1, h2⟩ := h
      cases i with
      | zero => simp at hi; subst hi; exact ⟨e, rfl, h1⟩
      | succ i => simp only [List.getElem?_cons_succ] at hi ⊢; exact ih h2 hi

theorem EntryList.take {tb : Timeboard L} {freq : Freq} {duty : Duty} {s : Schedule L} : ∀ (n : Nat) {os : List Int} {es : List (Option (Interval L × Int))},
    EntryList tb freq duty s os es → EntryList tb freq duty s (os.take n) (es.take n) := by
  intro n
  induction n with
  | zero => intros; simp [EntryList]
  | succ n ih =>
    intro os es h
    cases os with
    | nil => cases es with
      | nil => trivial
      | cons e es => exact h.elim
    | cons o os => cases es with
      | nil => exact h.elim
      | cons e es => exact ⟨h.1, ih h.2⟩

theorem EntryList.drop {tb : Timeboard L} {freq : Freq} {duty : Duty} {s : Schedule L} : ∀ (n : Nat) {os : List Int} {es : List (Option (Interval L × Int))},
    EntryList tb freq duty s os es → EntryList tb freq duty s (os.drop n) (es.drop n) := by
  intro n
  induction n with
  | zero => intro os es h; exact h
  | succ n ih =>
    intro os es h
    cases os with
    | nil => cases es with
      | nil => trivial
      | cons e es => exact h.elim
    | cons o os => cases es with
      | nil => exact h.elim
      | cons e es => exact ih h.2

theorem EntryList.countPositive {tb : Timeboard L} {freq : Freq} {duty : Duty} {s : Schedule L} : ∀ {os : List Int} {es : List (Option (Interval L × Int))},
    EntryList tb freq duty s os es →
    (∀ o ∈ os, tb.Within (Period.startTime ⟨freq, o⟩) ∧ tb.Within (Period.endTime ⟨freq, o⟩)) →
    ∃ n : Int, TB.countPositive es = .ok n ∧ (n : Rat) = (os.map (fun o => ((tb.den s duty freq o : Rat)) * (1 / (tb.den s duty freq o : Rat)))).sum := by
  intro os
  induction os with
  | nil =>
    intro es h _
    cases es with
    | nil => exact ⟨0, rfl, rfl⟩
    | cons e es => exact h.elim
  | cons o os ih =>
    intro es h hw
    cases es with
    | nil => exact h.elim
    | cons e es =>
      obtain ⟨h1, h2⟩ := h
      obtain ⟨n, g1, g2⟩ := ih h2 (fun x hx => hw x (by simp [hx]))
      cases e with
      | none => exact absurd (hw o (by simp)) h1.2
      | some vc =>
        obtain ⟨v, c⟩ := vc
        obtain ⟨_, _, h3⟩ := h1
        refine ⟨(if c > 0 then 1 else 0) + n, ?_, ?_⟩
        · unfold TB.countPositive; rw [g1]; rfl
        · rw [List.map_cons, List.sum_cons, ← g2, Rat.intCast_add]
          congr 1
          subst h3
          by_cases hz : tb.den s duty freq o = 0
          · rw [hz]; simp
          · have hz' : ((tb.den s duty freq o : Nat) : Rat) ≠ 0 := by exact_mod_cast hz
            rw [if_pos (by omega)]
            have : ((1 : Int) : Rat) = 1 := rfl
            rw [this]
            grind

/-- The value of `count_periods`: every workshift with the duty weighs one part of its period. -/
def Timeboard.weight (tb : Timeboard L) (s : Schedule L) (duty : Duty) (freq : Freq) (lo hi : Int) : Rat :=
  ((tb.dutyPositions s.selector duty lo hi).map (fun k => 1 / (tb.den s duty freq (tb.per freq k) : Rat))).sum

/-- The frame of periods of an interval. -/
theorem Timeboard.Valid.periodIndex {freq : Freq} (hm : freq.mult = 1) {a b : Time} (hab : a ≤ b) :
    ∃ F, Frame.new freq a b = .ok F ∧ F.ords = intRange (freq.base.ordOf a) (freq.base.ordOf b + 1) ∧
      (∀ i, F.unitEnd i = freq.base.startOf (freq.base.ordOf a + i + 1) - 1) ∧
      ∀ t, a ≤ t → t ≤ b → F.getLoc t = .ok (freq.base.ordOf t - freq.base.ordOf a) := by
  have ho := freq.base.ordOf_mono hab
  obtain ⟨F, hF⟩ : ∃ F, Frame.new freq a b = .ok F := ⟨_, Frame.new_ok_iff.2 ⟨ho, rfl⟩⟩
  obtain ⟨_, hF'⟩ := Frame.new_ok_iff.1 hF
  have hfr : F.freq = freq := by rw [hF']
  have h0 : F.o0 = freq.base.ordOf a := by rw [hF']
  have hn : (F.n : Int) = freq.base.ordOf b - freq.base.ordOf a + 1 := by
    rw [hF']; simp only [hm, Int.natCast_one, Int.ediv_one]; omega
  have hord : ∀ j, F.ord j = freq.base.ordOf a + j := by intro j; unfold Frame.ord; rw [hfr, h0, hm]; simp
  have hus : ∀ j, F.unitStart j = freq.base.startOf (freq.base.ordOf a + j) := by
    intro j; unfold Frame.unitStart; rw [hfr, hord]
  have hue : ∀ j, F.unitEnd j = freq.base.startOf (freq.base.ordOf a + j + 1) - 1 := by
    intro j; rw [Frame.unitEnd_eq, hus]; congr 2; omega
  refine ⟨F, hF, ?_, hue, ?_⟩
  · unfold Frame.ords intRange
    have : (freq.base.ordOf b + 1 - freq.base.ordOf a).toNat = F.n := by omega
    rw [this]
    apply List.map_congr_left
    intro i _
    exact hord i
  · intro t h1 h2
    have a1 := freq.base.ordOf_mono h1
    have a2 := freq.base.ordOf_mono h2
    rw [Frame.getLoc_ok_iff, hus, hue]
    have e : freq.base.ordOf a + (freq.base.ordOf t - freq.base.ordOf a) = freq.base.ordOf t := by omega
    rw [e]
    have b1 := freq.base.startOf_le_self t
    have b2 := freq.base.lt_startOf_succ t
    exact ⟨by omega, by omega, b1, by omega⟩

theorem Timeboard.Valid.at_ref {tb : Timeboard L} (hv : tb.Valid) {k : Int} (h0 : 0 ≤ k) (h1 : k < tb.timeline.len) :
    tb.At (tb.timeline.refTime k) k := by
  obtain ⟨w, hw, _, _, _, hs, he, _⟩ := Workshift.exists_of_range hv none h0 h1
  have := hv.wf.refTime_within h0 h1
  exact ⟨h0, h1, w, _, _, hw, hs, he, this.1, by omega⟩

theorem Timeboard.Valid.at_end_of {tb : Timeboard L} (hv : tb.Valid) {k : Int} (h0 : 0 ≤ k) (h1 : k < tb.timeline.len) :
    tb.At (tb.timeline.frame.unitStart (tb.timeline.bnd (k + 1)) - 1) k := by
  obtain ⟨w, hw, _, _, _, hs, he, _⟩ := Workshift.exists_of_range hv none h0 h1
  have := hv.wf.refTime_within h0 h1
  exact ⟨h0, h1, w, _, _, hw, hs, he, by omega, Int.le_refl _⟩

theorem Timeboard.Valid.at_start_of {tb : Timeboard L} (hv : tb.Valid) {k : Int} (h0 : 0 ≤ k) (h1 : k < tb.timeline.len) :
    tb.At (tb.timeline.frame.unitStart (tb.timeline.bnd k)) k := by
  obtain ⟨w, hw, _, _, _, hs, he, _⟩ := Workshift.exists_of_range hv none h0 h1
  have := hv.wf.refTime_within h0 h1
  exact ⟨h0, h1, w, _, _, hw, hs, he, Int.le_refl _, by omega⟩

/-- Counting in an interval given by two of its workshifts. -/
theorem count_between {tb : Timeboard L} (h : tb.Reachable) {s : Schedule L} (ho : tb.Owns s) {duty : Duty}
    (hd : duty = .on ∨ duty = .off ∨ duty = .any) {a b : Time} {i j : Int} (ha : tb.At a i) (hb : tb.At b j) (hij : i ≤ j) :
    ∃ v, tb.getInterval (some (.pair (some a) (some b))) none none false "11" (some s) = .ok v ∧
      v.count tb duty (some s) = .ok ((tb.dutyPositions s.selector duty i j).length : Int) := by
  have hv := h.valid
  have hos : tb.OwnsOpt (some s) := by intro x hx; cases hx; exact ho
  rw [hv.getInterval_pair ha hb closedOk_11]
  unfold cutInterval
  rw [headCut_11, tailCut_11, Int.add_zero, Int.sub_zero, if_pos hij]
  obtain ⟨v, hv'⟩ : ∃ v, Interval.new tb (i, j) (some s) = .ok v := ⟨_, Interval.new_ok_iff.2 ⟨ha.1, hij, hb.2.1, rfl⟩⟩
  refine ⟨v, hv', ?_⟩
  have hf := Interval.new_fine hv hos hv'
  obtain ⟨_, _, _, e⟩ := Interval.new_ok_iff.1 hv'
  have e1 : v.lo = i := by rw [e]
  have e2 : v.hi = j := by rw [e]
  rw [hf.count_eq hv hos hd, e1, e2]; rfl

/-- The number of positions with the duty in the range referenced in the period. -/
def Timeboard.num (tb : Timeboard L) (s : Schedule L) (duty : Duty) (freq : Freq) (lo hi o : Int) : Nat :=
  ((tb.dutyPositions s.selector duty lo hi).filter (fun k => decide (tb.per freq k = o))).length

theorem Timeboard.weight_eq_sum {tb : Timeboard L} {s : Schedule L} {duty : Duty} {freq : Freq} {lo hi : Int} {os : List Int} (hn : os.Nodup)
    (h : ∀ k ∈ tb.dutyPositions s.selector duty lo hi, tb.per freq k ∈ os) :
    tb.weight s duty freq lo hi = (os.map (fun o => (tb.num s duty freq lo hi o : Rat) * (1 / (tb.den s duty freq o : Rat)))).sum :=
  sum_by_groups _ (tb.per freq) (fun o => 1 / (tb.den s duty freq o : Rat)) hn h

theorem nodup_intRange (a b : Int) : (intRange a b).Nodup :=
  (pairwise_intRange a b).imp (fun h => by omega)

theorem Timeboard.den_pos {tb : Timeboard L} {s : Schedule L} {duty : Duty} {freq : Freq} {k : Int} (h : k ∈ tb.allDuty s duty) :
    0 < tb.den s duty freq (tb.per freq k) := by
  unfold Timeboard.den
  rw [List.length_pos_iff]
  intro he
  have : k ∈ (tb.allDuty s duty).filter (fun j => decide (tb.per freq j = tb.per freq k)) := List.mem_filter.2 ⟨h, by simp⟩
  rw [he] at this; simp at this

/-- The computation after the first and the last workshift with the duty are found. -/
theorem Interval.Proper.countPeriodsBody_eq {tb : Timeboard L} (h : tb.Reachable) {v : Interval L} (hp : v.Proper tb) {s : Schedule L}
    (ho : tb.Owns s) {freq : Freq} (hm : freq.mult = 1) {duty : Duty} (hd : duty = .on ∨ duty = .off ∨ duty = .any)
    {a b : Time} {F : Frame} (hF : Frame.new freq a b = .ok F) (hab : a ≤ b)
    (hra : ∀ k, v.lo ≤ k → k ≤ v.hi → a ≤ tb.timeline.refTime k ∧ tb.timeline.refTime k ≤ b)
    {k0 k1 : Int} (hk0 : k0 ∈ tb.dutyPositions s.selector duty v.lo v.hi) (hk1 : k1 ∈ tb.dutyPositions s.selector duty v.lo v.hi)
    (hall : ∀ k ∈ tb.dutyPositions s.selector duty v.lo v.hi, k0 ≤ k ∧ k ≤ k1) :
    (∀ o, freq.base.ordOf a ≤ o → o ≤ freq.base.ordOf b → FitPeriod tb ⟨freq, o⟩) ∧
      v.countPeriodsBody tb freq duty s F (tb.timeline.refTime k0) (tb.timeline.refTime k1) = .ok (tb.weight s duty freq v.lo v.hi) ∨
    (∃ o e, freq.base.ordOf a ≤ o ∧ o ≤ freq.base.ordOf b ∧ UnfitError tb ⟨freq, o⟩ e ∧
       v.countPeriodsBody tb freq duty s F (tb.timeline.refTime k0) (tb.timeline.refTime k1) = .error e) := by
  have hv := h.valid
  have hos : tb.OwnsOpt (some s) := by intro x hx; cases hx; exact ho
  have hlo := hp.lo_nonneg
  have hhi := hp.hi_lt
  have hlohi := hp.lo_le_hi
  obtain ⟨F', hF1, hF2, hF3, hF4⟩ := Timeboard.Valid.periodIndex hm hab
  rw [hF] at hF1; cases hF1
  obtain ⟨m1, m2, _⟩ := Timeboard.mem_dutyPositions.1 hk0
  obtain ⟨n1, n2, _⟩ := Timeboard.mem_dutyPositions.1 hk1
  have hk01 := (hall k1 hk1).1
  obtain ⟨ra1, ra2⟩ := hra k0 m1 m2
  obtain ⟨rb1, rb2⟩ := hra k1 n1 n2
  have hk0a : k0 ∈ tb.allDuty s duty := by
    rw [Timeboard.dutyPositions_eq_filter hlo hhi] at hk0; exact (List.mem_filter.1 hk0).1
  have hk1a : k1 ∈ tb.allDuty s duty := by
    rw [Timeboard.dutyPositions_eq_filter hlo hhi] at hk1; exact (List.mem_filter.1 hk1).1
  have hmem : ∀ o, o ∈ F.ords ↔ (freq.base.ordOf a ≤ o ∧ o ≤ freq.base.ordOf b) := by
    intro o; rw [hF2, mem_intRange]; omega
  have hl0 : F.getLoc (tb.timeline.refTime k0) = .ok (tb.per freq k0 - freq.base.ordOf a) := hF4 _ ra1 ra2
  have hl1 : F.getLoc (tb.timeline.refTime k1) = .ok (tb.per freq k1 - freq.base.ordOf a) := hF4 _ rb1 rb2
  have p0a : freq.base.ordOf a ≤ tb.per freq k0 := freq.base.ordOf_mono ra1
  have p0b : tb.per freq k0 ≤ freq.base.ordOf b := freq.base.ordOf_mono ra2
  have p1a : freq.base.ordOf a ≤ tb.per freq k1 := freq.base.ordOf_mono rb1
  have p1b : tb.per freq k1 ≤ freq.base.ordOf b := freq.base.ordOf_mono rb2
  have p01 : tb.per freq k0 ≤ tb.per freq k1 := hv.per_mono freq (by omega) hk01 (by omega)
  rcases periodLoop_spec h ho hm hd F.ords with ⟨a1, es, a2, a3⟩ | ⟨o, b1, e, b2, b3⟩
  · left
    refine ⟨fun o h1 h2 => a1 o ((hmem o).2 ⟨h1, h2⟩), ?_⟩
    -- entries of periods with workshifts having the duty
    have hent : ∀ k, k ∈ tb.allDuty s duty → freq.base.ordOf a ≤ tb.per freq k → tb.per freq k ≤ freq.base.ordOf b →
        ∃ u, periodEntry es (tb.per freq k - freq.base.ordOf a) = .ok (u, (tb.den s duty freq (tb.per freq k) : Int)) ∧
          u.Proper tb ∧ ∀ j, (u.lo ≤ j ∧ j ≤ u.hi) ↔ (0 ≤ j ∧ j < tb.timeline.len ∧ tb.per freq j = tb.per freq k) := by
      intro k hk h1 h2
      have hget : F.ords[(tb.per freq k - freq.base.ordOf a).toNat]? = some (tb.per freq k) := by
        rw [hF2, getElem?_intRange (by omega)]; congr 1; omega
      obtain ⟨e, g1, g2⟩ := a3.get hget
      obtain ⟨k0', k1'⟩ := Timeboard.mem_allDuty hk
      cases e with
      | none => exact absurd ((hv.refIn_per hm).2 ⟨k0', k1', rfl⟩) (g2.1 k)
      | some uc =>
        obtain ⟨u, c⟩ := uc
        obtain ⟨q1, q2, q3⟩ := g2
        refine ⟨u, ?_, q1, fun j => (q2 j).trans (hv.refIn_per hm)⟩
        unfold periodEntry
        rw [pyGet?_nonneg _ (by omega), g1, q3]
    obtain ⟨u0, e0, u0p, u0m⟩ := hent k0 hk0a p0a p0b
    obtain ⟨u1, e1, u1p, u1m⟩ := hent k1 hk1a p1a p1b
    have d0 := Timeboard.den_pos (freq := freq) hk0a
    have d1 := Timeboard.den_pos (freq := freq) hk1a
    have hdiv : ∀ (n d : Nat), 0 < d → pyDiv (n : Int) (d : Int) = .ok ((n : Rat) * (1 / (d : Rat))) := by
      intro n d hd'
      unfold pyDiv
      rw [if_neg (by omega), Rat.intCast_natCast, Rat.intCast_natCast, Rat.div_def, Rat.div_def, Rat.one_mul]
    have hperle : ∀ k ∈ tb.dutyPositions s.selector duty v.lo v.hi, tb.per freq k0 ≤ tb.per freq k ∧ tb.per freq k ≤ tb.per freq k1 := by
      intro k hk
      obtain ⟨q1, q2, _⟩ := Timeboard.mem_dutyPositions.1 hk
      obtain ⟨q3, q4⟩ := hall k hk
      exact ⟨hv.per_mono freq (by omega) q3 (by omega), hv.per_mono freq (by omega) q4 (by omega)⟩
    have hcond : (tb.timeline.refTime k1 ≤ F.unitEnd (tb.per freq k0 - freq.base.ordOf a)) ↔ tb.per freq k1 = tb.per freq k0 := by
      rw [hF3]
      have e : freq.base.ordOf a + (tb.per freq k0 - freq.base.ordOf a) + 1 = tb.per freq k0 + 1 := by omega
      rw [e]
      have := freq.base.lt_startOf_iff (tb.per freq k0 + 1) (tb.timeline.refTime k1)
      have e2 : freq.base.ordOf (tb.timeline.refTime k1) = tb.per freq k1 := rfl
      rw [e2] at this
      omega
    by_cases hsame : tb.per freq k1 = tb.per freq k0
    · -- a single period
      have hone : ∀ k ∈ tb.dutyPositions s.selector duty v.lo v.hi, tb.per freq k = tb.per freq k0 := by
        intro k hk; have := hperle k hk; omega
      have hw := Timeboard.weight_eq_sum (tb := tb) (s := s) (duty := duty) (freq := freq) (lo := v.lo) (hi := v.hi)
        (os := [tb.per freq k0]) (by simp) (fun k hk => by simp [hone k hk])
      have hnum : tb.num s duty freq v.lo v.hi (tb.per freq k0) = (tb.dutyPositions s.selector duty v.lo v.hi).length := by
        unfold Timeboard.num
        rw [List.filter_eq_self.2]
        intro k hk; simp [hone k hk]
      have hcnt : v.count tb duty (some s) = .ok ((tb.dutyPositions s.selector duty v.lo v.hi).length : Int) := hp.count_eq hv (by exact ho) hd
      unfold Interval.countPeriodsBody
      simp only [a2, hl0, hl1, Bind.bind, Except.bind, if_pos (hcond.2 hsame), e0, hcnt]
      rw [hdiv _ _ d0, hw]
      simp only [List.map_cons, List.map_nil, List.sum_cons, List.sum_nil, hnum]
      congr 1
      grind
    · -- several periods
      have hlt : tb.per freq k0 < tb.per freq k1 := by omega
      have u0lo := u0p.lo_nonneg
      have u0hi := u0p.hi_lt
      have u1lo := u1p.lo_nonneg
      have u1hi := u1p.hi_lt
      obtain ⟨x1, x2⟩ := (u0m k0).2 ⟨by omega, by omega, rfl⟩
      obtain ⟨y1, y2⟩ := (u1m k1).2 ⟨by omega, by omega, rfl⟩
      have t0 : timeOrTypeError (u0.endTime tb) = .ok (tb.timeline.frame.unitStart (tb.timeline.bnd (u0.hi + 1)) - 1) := by
        unfold Interval.endTime
        rw [u0p.not_void, hv.wf.wsEnd_eq (by omega) u0hi]; rfl
      have t1 : timeOrTypeError (u1.startTime tb) = .ok (tb.timeline.frame.unitStart (tb.timeline.bnd u1.lo)) := by
        unfold Interval.startTime
        rw [u1p.not_void, hv.wf.wsStart_eq u1lo (by omega)]; rfl
      obtain ⟨v0, v01, v02⟩ := count_between h ho hd (hv.at_ref (k := k0) (by omega) (by omega)) (hv.at_end_of (k := u0.hi) (by omega) u0hi) x2
      obtain ⟨v1, v11, v12⟩ := count_between h ho hd (hv.at_start_of (k := u1.lo) u1lo (by omega)) (hv.at_ref (k := k1) (by omega) (by omega)) y1
      have c0 : (tb.dutyPositions s.selector duty k0 u0.hi).length = tb.num s duty freq v.lo v.hi (tb.per freq k0) := by
        unfold Timeboard.num
        rw [Timeboard.dutyPositions_eq_filter (by omega) u0hi, Timeboard.dutyPositions_eq_filter hlo hhi, List.filter_filter]
        congr 1
        apply List.filter_congr
        intro k hk
        obtain ⟨q1, q2⟩ := Timeboard.mem_allDuty hk
        rw [Bool.eq_iff_iff]
        simp only [Bool.and_eq_true, decide_eq_true_eq]
        constructor
        · rintro ⟨r1, r2⟩
          have hpk := ((u0m k).1 ⟨by omega, r2⟩).2.2
          refine ⟨hpk, by omega, ?_⟩
          rcases Int.lt_or_le v.hi k with hc | hc
          · have := hv.per_mono freq (j := k1) (k := k) (by omega) (by omega) q2
            omega
          · exact hc
        · rintro ⟨r1, r2, r3⟩
          have hkm : k ∈ tb.dutyPositions s.selector duty v.lo v.hi := by
            rw [Timeboard.dutyPositions_eq_filter hlo hhi]; exact List.mem_filter.2 ⟨hk, by simp [r2, r3]⟩
          exact ⟨(hall k hkm).1, ((u0m k).2 ⟨q1, q2, r1⟩).2⟩
      have c1 : (tb.dutyPositions s.selector duty u1.lo k1).length = tb.num s duty freq v.lo v.hi (tb.per freq k1) := by
        unfold Timeboard.num
        rw [Timeboard.dutyPositions_eq_filter u1lo (by omega), Timeboard.dutyPositions_eq_filter hlo hhi, List.filter_filter]
        congr 1
        apply List.filter_congr
        intro k hk
        obtain ⟨q1, q2⟩ := Timeboard.mem_allDuty hk
        rw [Bool.eq_iff_iff]
        simp only [Bool.and_eq_true, decide_eq_true_eq]
        constructor
        · rintro ⟨r1, r2⟩
          have hpk := ((u1m k).1 ⟨r1, by omega⟩).2.2
          refine ⟨hpk, ?_, by omega⟩
          rcases Int.lt_or_le k v.lo with hc | hc
          · have := hv.per_mono freq (j := k) (k := k0) (by omega) (by omega) (by omega)
            omega
          · exact hc
        · rintro ⟨r1, r2, r3⟩
          have hkm : k ∈ tb.dutyPositions s.selector duty v.lo v.hi := by
            rw [Timeboard.dutyPositions_eq_filter hlo hhi]; exact List.mem_filter.2 ⟨hk, by simp [r2, r3]⟩
          exact ⟨((u1m k).2 ⟨q1, q2, r1⟩).1, (hall k hkm).2⟩
      -- the periods in between
      have hmid : ∀ o ∈ intRange (tb.per freq k0 + 1) (tb.per freq k1), tb.num s duty freq v.lo v.hi o = tb.den s duty freq o := by
        intro o ho'
        rw [mem_intRange] at ho'
        unfold Timeboard.num Timeboard.den
        rw [Timeboard.dutyPositions_eq_filter hlo hhi, List.filter_filter]
        congr 1
        apply List.filter_congr
        intro k hk
        obtain ⟨q1, q2⟩ := Timeboard.mem_allDuty hk
        rw [Bool.eq_iff_iff]
        simp only [Bool.and_eq_true, decide_eq_true_eq]
        constructor
        · exact fun hx => hx.1
        · intro hx
          refine ⟨hx, ?_, ?_⟩
          · rcases Int.lt_or_le k v.lo with hc | hc
            · have := hv.per_mono freq (j := k) (k := k0) q1 (by omega) (by omega)
              omega
            · exact hc
          · rcases Int.lt_or_le v.hi k with hc | hc
            · have := hv.per_mono freq (j := k1) (k := k) (by omega) (by omega) q2
              omega
            · exact hc
      have hwithin : ∀ o ∈ intRange (tb.per freq k0 + 1) (tb.per freq k1),
          tb.Within (Period.startTime ⟨freq, o⟩) ∧ tb.Within (Period.endTime ⟨freq, o⟩) := by
        intro o ho'
        rw [mem_intRange] at ho'
        have z0 := hv.refTime_in_frame (k := k0) (by omega) (by omega)
        have z1 := hv.refTime_in_frame (k := k1) (by omega) (by omega)
        have z2 := (freq.base.lt_startOf_iff o (tb.timeline.refTime k0)).2 (by have : freq.base.ordOf (tb.timeline.refTime k0) = tb.per freq k0 := rfl; omega)
        have z3 := (freq.base.startOf_le_iff (o + 1) (tb.timeline.refTime k1)).2 (by have : freq.base.ordOf (tb.timeline.refTime k1) = tb.per freq k1 := rfl; omega)
        have z4 := (freq.base.startOf_lt_iff o (o + 1)).2 (by omega)
        unfold Timeboard.Within
        simp only [Period.startTime, Period.endTime, hm, Int.natCast_one]
        omega
      have hslice : (F.ords.take (tb.per freq k1 - freq.base.ordOf a).toNat).drop (tb.per freq k0 - freq.base.ordOf a + 1).toNat =
          intRange (tb.per freq k0 + 1) (tb.per freq k1) := by
        rw [hF2]
        apply List.ext_getElem?
        intro i
        rw [List.getElem?_drop, List.getElem?_take]
        rcases Int.lt_or_le (tb.per freq k0 + 1 + i) (tb.per freq k1) with hc | hc
        · rw [if_pos (by omega), getElem?_intRange (by omega), getElem?_intRange (by omega)]
          congr 1; omega
        · rw [if_neg (by omega), List.getElem?_eq_none (by rw [length_intRange]; omega)]
      have hel := (a3.take (tb.per freq k1 - freq.base.ordOf a).toNat).drop (tb.per freq k0 - freq.base.ordOf a + 1).toNat
      rw [hslice] at hel
      obtain ⟨n, hn1, hn2⟩ := hel.countPositive hwithin
      -- the sum
      have hw := Timeboard.weight_eq_sum (tb := tb) (s := s) (duty := duty) (freq := freq) (lo := v.lo) (hi := v.hi)
        (os := intRange (tb.per freq k0) (tb.per freq k1 + 1)) (nodup_intRange _ _) (fun k hk => by
          rw [mem_intRange]; have := hperle k hk; omega)
      rw [intRange_cons (by omega), ← intRange_append (b := tb.per freq k1) (by omega) (by omega),
        intRange_cons (a := tb.per freq k1) (by omega), intRange_empty (Int.le_refl _)] at hw
      have hms : (intRange (tb.per freq k0 + 1) (tb.per freq k1)).map (fun o => (tb.num s duty freq v.lo v.hi o : Rat) * (1 / (tb.den s duty freq o : Rat))) =
          (intRange (tb.per freq k0 + 1) (tb.per freq k1)).map (fun o => (tb.den s duty freq o : Rat) * (1 / (tb.den s duty freq o : Rat))) := by
        apply List.map_congr_left
        intro o ho'
        rw [hmid o ho']
      simp only [List.map_cons, List.map_append, List.map_nil, List.sum_cons, List.sum_append, List.sum_nil, hms, ← hn2] at hw
      unfold Interval.countPeriodsBody
      simp only [a2, hl0, hl1, Bind.bind, Except.bind, if_neg (fun hx => hsame (hcond.1 hx)), e0, e1, t0, t1, v01, v02, v11, v12]
      rw [hdiv _ _ d0, hdiv _ _ d1, c0, c1]
      simp only [pure, Except.pure]
      by_cases hfull : tb.per freq k1 - freq.base.ordOf a - (tb.per freq k0 - freq.base.ordOf a) - 1 > 0
      · rw [if_pos hfull]
        simp only [hn1]
        rw [hw]
        congr 1
        grind
      · rw [if_neg hfull]
        have hz : n = 0 := by
          rw [intRange_empty (by omega)] at hn2
          simp only [List.map_nil, List.sum_nil] at hn2
          exact_mod_cast hn2
        rw [hw, hz]
        congr 1
        have : ((0 : Int) : Rat) = 0 := rfl
        rw [this]
        grind
  · right
    refine ⟨o, e, ((hmem o).1 b1).1, ((hmem o).1 b1).2, b2, ?_⟩
    unfold Interval.countPeriodsBody
    simp [b3, Bind.bind, Except.bind]

theorem supportedPeriod_mult {freq : Freq} (h : supportedPeriod freq = true) : freq.mult = 1 := by
  unfold supportedPeriod at h
  simp only [Bool.and_eq_true, Option.isNone_iff_eq_none] at h
  unfold Freq.mult
  rw [h.1]; rfl

/-- The whole of `count_periods` on a regular interval. -/
theorem Interval.Proper.countPeriods_eq {tb : Timeboard L} (h : tb.Reachable) {v : Interval L} (hp : v.Proper tb)
    {sch : Option (Schedule L)} (ho : tb.Owns (sch.getD v.schedule)) {freq : Freq} (hsup : supportedPeriod freq = true)
    {duty : Duty} (hd : duty = .on ∨ duty = .off ∨ duty = .any) {a b : Time} (ha : v.startTime tb = .ok (some a)) (hb : v.endTime tb = .ok (some b)) :
    (tb.dutyPositions (sch.getD v.schedule).selector duty v.lo v.hi = [] ∧ v.countPeriods tb freq duty sch = .ok 0) ∨
    (tb.dutyPositions (sch.getD v.schedule).selector duty v.lo v.hi ≠ [] ∧
      (∀ o, freq.base.ordOf a ≤ o → o ≤ freq.base.ordOf b → FitPeriod tb ⟨freq, o⟩) ∧
      v.countPeriods tb freq duty sch = .ok (tb.weight (sch.getD v.schedule) duty freq v.lo v.hi)) ∨
    (tb.dutyPositions (sch.getD v.schedule).selector duty v.lo v.hi ≠ [] ∧
      ∃ o e, freq.base.ordOf a ≤ o ∧ o ≤ freq.base.ordOf b ∧ UnfitError tb ⟨freq, o⟩ e ∧ v.countPeriods tb freq duty sch = .error e) := by
  have hv := h.valid
  have hlo := hp.lo_nonneg
  have hhi := hp.hi_lt
  have hlohi := hp.lo_le_hi
  have hm := supportedPeriod_mult hsup
  generalize hs : sch.getD v.schedule = s at *
  have ea : a = tb.timeline.frame.unitStart (tb.timeline.bnd v.lo) := by
    unfold Interval.startTime at ha
    rw [hp.not_void, hv.wf.wsStart_eq hlo (by omega)] at ha
    simp only [Bool.false_eq_true, if_false] at ha
    cases ha; rfl
  have eb : b = tb.timeline.frame.unitStart (tb.timeline.bnd (v.hi + 1)) - 1 := by
    unfold Interval.endTime at hb
    rw [hp.not_void, hv.wf.wsEnd_eq (by omega) hhi] at hb
    simp only [Bool.false_eq_true, if_false] at hb
    cases hb; rfl
  have hra : ∀ k, v.lo ≤ k → k ≤ v.hi → a ≤ tb.timeline.refTime k ∧ tb.timeline.refTime k ≤ b := by
    intro k h1 h2
    obtain ⟨q1, q2⟩ := hv.wf.refTime_within (k := k) (by omega) (by omega)
    have z1 : tb.timeline.frame.unitStart (tb.timeline.bnd v.lo) ≤ tb.timeline.frame.unitStart (tb.timeline.bnd k) :=
      Frame.unitStart_le_iff.2 (hv.wf.bnd_le_bnd (by omega) h1 (by omega))
    have z2 : tb.timeline.frame.unitStart (tb.timeline.bnd (k + 1)) ≤ tb.timeline.frame.unitStart (tb.timeline.bnd (v.hi + 1)) :=
      Frame.unitStart_le_iff.2 (hv.wf.bnd_le_bnd (by omega) (by omega) (by omega))
    omega
  have hab : a ≤ b := by have := hra v.lo (by omega) hlohi; omega
  obtain ⟨F, hF, _⟩ := Timeboard.Valid.periodIndex hm hab
  have hn0 := hp.nth_eq hv (sch := some s) (by exact ho) hd 0
  have hn1 := hp.nth_eq hv (sch := some s) (by exact ho) hd (-1)
  simp only [Option.getD_some] at hn0 hn1
  unfold Interval.countPeriods Interval.first Interval.last
  simp only [hp.not_void, hsup, ha, hb, hF, hs, timeOrTypeError, Bool.false_eq_true, if_false, Bool.not_true, Bind.bind, Except.bind, hn0, hn1]
  cases hD : tb.dutyPositions s.selector duty v.lo v.hi with
  | nil => left; exact ⟨rfl, rfl⟩
  | cons k0 ks =>
    right
    have hpw := tb.pairwise_dutyPositions s.selector duty v.lo v.hi
    have hk0 : k0 ∈ tb.dutyPositions s.selector duty v.lo v.hi := by rw [hD]; simp
    obtain ⟨k1, hk1e⟩ : ∃ k1, (k0 :: ks).getLast? = some k1 := ⟨_, List.getLast?_cons⟩
    have hk1 : k1 ∈ tb.dutyPositions s.selector duty v.lo v.hi := by rw [hD]; exact List.mem_of_getLast? hk1e
    have hall : ∀ k ∈ tb.dutyPositions s.selector duty v.lo v.hi, k0 ≤ k ∧ k ≤ k1 := by
      intro k hk
      rw [hD] at hk hpw
      constructor
      · rcases List.mem_cons.1 hk with rfl | hk
        · exact Int.le_refl _
        · exact Int.le_of_lt ((List.pairwise_cons.1 hpw).1 k hk)
      · obtain ⟨l, hl⟩ := List.getLast?_eq_some_iff.1 hk1e
        rw [hl] at hk hpw
        rcases List.mem_append.1 hk with hk | hk
        · exact Int.le_of_lt ((List.pairwise_append.1 hpw).2.2 k hk k1 (by simp))
        · simp only [List.mem_singleton] at hk; omega
    have g0 : pyGet? (k0 :: ks) 0 = some k0 := by rw [pyGet?_nonneg _ (by omega)]; rfl
    have g1 : pyGet? (k0 :: ks) (-1) = some k1 := by
      unfold pyGet?
      rw [List.getLast?_eq_getElem?] at hk1e
      simp only [List.length_cons] at hk1e ⊢
      rw [if_neg (by decide), if_pos (by omega), ← hk1e]; congr 1; omega
    obtain ⟨m1, m2, _⟩ := Timeboard.mem_dutyPositions.1 hk0
    obtain ⟨n1, n2, _⟩ := Timeboard.mem_dutyPositions.1 hk1
    obtain ⟨w0, c0, _, _, _, _, _, t0, _⟩ := Workshift.exists_of_range hv (some s) (k := k0) (by omega) (by omega)
    obtain ⟨w1, c1, _, _, _, _, _, t1, _⟩ := Workshift.exists_of_range hv (some s) (k := k1) (by omega) (by omega)
    simp only [g0, g1, c0, c1, t0, t1]
    have hne : k0 :: ks ≠ [] := by simp
    rcases hp.countPeriodsBody_eq h ho hm hd hF hab hra hk0 hk1 hall with ⟨r1, r2⟩ | r
    · exact .inl ⟨hne, r1, r2⟩
    · exact .inr ⟨hne, r⟩

end TB
