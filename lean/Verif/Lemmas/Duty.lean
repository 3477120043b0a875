import Verif.Lemmas.Timeboard
import Verif.Spec.Duty
/-! Laws of duties. -/
namespace TB
variable {L : Type}

theorem Workshift.isOnDuty_eq {tb : Timeboard L} {w : Workshift L} {l : L} (h : tb.timeline.label w.loc = .ok l)
    (sch : Option (Schedule L)) : w.isOnDuty tb sch = .ok ((sch.getD w.schedule).selector l) := by
  unfold Workshift.isOnDuty Schedule.isOnDuty
  rw [h]; rfl

theorem Workshift.isOffDuty_eq {tb : Timeboard L} {w : Workshift L} {l : L} (h : tb.timeline.label w.loc = .ok l)
    (sch : Option (Schedule L)) : w.isOffDuty tb sch = .ok (!(sch.getD w.schedule).selector l) := by
  unfold Workshift.isOffDuty Schedule.isOffDuty Schedule.isOnDuty
  rw [h]; rfl

theorem Workshift.hasDuty_iff {tb : Timeboard L} {w : Workshift L} {l : L} (h : tb.timeline.label w.loc = .ok l)
    (s : Schedule L) (duty : Duty) : w.HasDuty tb s duty ↔ dutyMatches duty s.selector l = true := by
  cases duty <;> simp [Workshift.HasDuty, dutyMatches, Workshift.isOnDuty_eq h, Workshift.isOffDuty_eq h]

theorem Timeboard.Valid.dutyAt_iff {tb : Timeboard L} (hv : tb.Valid) {s : Schedule L} {duty : Duty} {k : Int} :
    tb.DutyAt s duty k ↔ (0 ≤ k ∧ k < tb.timeline.len ∧ ∃ l, tb.timeline.label k = .ok l ∧ dutyMatches duty s.selector l = true) := by
  unfold Timeboard.DutyAt
  constructor
  · rintro ⟨h0, h1, w, hw, hd⟩
    have hl := Workshift.new_label hw
    have hloc := Workshift.new_loc hw
    exact ⟨h0, h1, w.label, hl, (Workshift.hasDuty_iff (by rw [hloc]; exact hl) s duty).1 hd⟩
  · rintro ⟨h0, h1, l, hl, hd⟩
    obtain ⟨w, hw, hloc, _, hl', _⟩ := Workshift.exists_of_range hv (some s) h0 h1
    exact ⟨h0, h1, w, hw, (Workshift.hasDuty_iff (by rw [hloc]; exact hl) s duty).2 hd⟩

theorem Timeboard.Valid.mem_dutyPositions_iff {tb : Timeboard L} (hv : tb.Valid) {s : Schedule L} {duty : Duty} {lo hi : Int}
    (h0 : 0 ≤ lo) (h1 : hi < tb.timeline.len) (k : Int) :
    k ∈ tb.dutyPositions s.selector duty lo hi ↔ (lo ≤ k ∧ k ≤ hi ∧ tb.DutyAt s duty k) := by
  rw [Timeboard.mem_dutyPositions, hv.dutyAt_iff]
  constructor
  · rintro ⟨h2, h3, h4⟩; exact ⟨h2, h3, by omega, by omega, h4⟩
  · rintro ⟨h2, h3, _, _, h4⟩; exact ⟨h2, h3, h4⟩

theorem Timeboard.Valid.owns_getD {tb : Timeboard L} (hv : tb.Valid) {a b : Int} {s0 s1 : Option (Schedule L)} {v : Interval L}
    (h : Interval.new tb (a, b) s0 = .ok v) (h0 : tb.OwnsOpt s0) (h1 : tb.OwnsOpt s1) : tb.Owns (s1.getD v.schedule) := by
  obtain ⟨_, _, _, rfl⟩ := Interval.new_ok_iff.1 h
  cases s1 with
  | none => exact hv.effective_owned h0
  | some x => exact h1 x rfl

theorem Interval.Proper.workshifts_spec {v : Interval L} {tb : Timeboard L} (hp : v.Proper tb) (hv : tb.Valid)
    {sch : Option (Schedule L)} (ho : tb.Owns (sch.getD v.schedule)) {duty : Duty} (hd : duty = .on ∨ duty = .off ∨ duty = .any) :
    ∃ ws, v.workshifts tb duty sch = .ok ws ∧
      ws.map (fun w => w.loc) = tb.dutyPositions (sch.getD v.schedule).selector duty v.lo v.hi ∧
      (∀ w ∈ ws, w.schedule = sch.getD v.schedule ∧ tb.timeline.label w.loc = .ok w.label) ∧
      tb.ListsDuty (sch.getD v.schedule) duty v.lo v.hi ws := by
  rw [hp.workshifts_eq hv ho hd]
  have hlt := hp.hi_lt
  have h0 := hp.lo_nonneg
  obtain ⟨ws, h1, h2, h3⟩ := mapM_workshift_new hv (sch.getD v.schedule) (ks := tb.dutyPositions (sch.getD v.schedule).selector duty v.lo v.hi) (by
    intro k hk
    have := Timeboard.mem_dutyPositions.1 hk
    omega)
  refine ⟨ws, h1, h2, h3, ?_, ?_, ?_⟩
  · rw [h2]; exact tb.pairwise_dutyPositions _ _ _ _
  · intro w hw
    have := h3 w hw
    unfold Workshift.new
    rw [this.2]
    simp only [Option.getD_some]
    rw [← this.1]
  · intro k
    rw [← hv.mem_dutyPositions_iff h0 hlt, ← h2, List.mem_map]

/-! ### sums -/

theorem sum_filter_partition (p : Int → Bool) (f : Int → Int) (l : List Int) :
    ((l.filter p).map f).sum + ((l.filter (fun x => !p x)).map f).sum = (l.map f).sum := by
  induction l with
  | nil => simp
  | cons x xs ih =>
    cases hp : p x <;> simp [hp] <;> omega

theorem length_filter_partition (p : Int → Bool) (l : List Int) :
    (l.filter p).length + (l.filter (fun x => !p x)).length = l.length := by
  induction l with
  | nil => simp
  | cons x xs ih =>
    cases hp : p x <;> simp [hp] <;> omega

/-- The off-duty positions are those of the range which are not on-duty. -/
theorem Timeboard.Valid.dutyPositions_on_off {tb : Timeboard L} (hv : tb.Valid) (sel : L → Bool) {lo hi : Int}
    (h0 : 0 ≤ lo) (h1 : hi < tb.timeline.len) :
    ∃ p : Int → Bool, tb.dutyPositions sel .on lo hi = (intRange lo (hi + 1)).filter p ∧
      tb.dutyPositions sel .off lo hi = (intRange lo (hi + 1)).filter (fun x => !p x) := by
  refine ⟨fun k => match tb.timeline.label k with
    | .ok l => dutyMatches .on sel l
    | .error _ => false, rfl, ?_⟩
  unfold Timeboard.dutyPositions
  apply List.filter_congr
  intro x hx
  rw [mem_intRange] at hx
  obtain ⟨l, hl⟩ := hv.wf.label_ok (k := x) (by omega) (by omega)
  simp only [hl]; rfl

end TB
