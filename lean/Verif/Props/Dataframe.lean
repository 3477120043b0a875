import Verif.Lemmas.Intervals
import Verif.Examples.Boards
/-! Properties C39 and C40: data frames and the set of schedules. -/
namespace TB
open TB.Ex
variable {L : Type}

theorem mkRows_spec : ∀ (n : Nat) (as : List Int) (bs cs : List Time) (ds : List Int) (es : List Time) (ls : List L),
    as.length = n → bs.length = n → cs.length = n → ds.length = n → es.length = n → ls.length = n →
    ∃ rows, mkRows as bs cs ds es ls = .ok rows ∧ rows.length = n ∧
      ∀ (i : Nat) (r : Row L), rows[i]? = some r → as[i]? = some r.loc ∧ bs[i]? = some r.wsRef ∧ cs[i]? = some r.start ∧
        ds[i]? = some r.duration ∧ es[i]? = some r.stop ∧ ls[i]? = some r.label := by
  intro n
  induction n with
  | zero =>
    intro as bs cs ds es ls h1 h2 h3 h4 h5 h6
    rw [List.length_eq_zero_iff] at h1 h2 h3 h4 h5 h6
    subst h1 h2 h3 h4 h5 h6
    exact ⟨[], rfl, rfl, by simp⟩
  | succ n ih =>
    intro as bs cs ds es ls h1 h2 h3 h4 h5 h6
    obtain ⟨a, as, rfl⟩ := List.exists_cons_of_length_eq_add_one h1
    obtain ⟨b, bs, rfl⟩ := List.exists_cons_of_length_eq_add_one h2
    obtain ⟨c, cs, rfl⟩ := List.exists_cons_of_length_eq_add_one h3
    obtain ⟨d, ds, rfl⟩ := List.exists_cons_of_length_eq_add_one h4
    obtain ⟨e, es, rfl⟩ := List.exists_cons_of_length_eq_add_one h5
    obtain ⟨l, ls, rfl⟩ := List.exists_cons_of_length_eq_add_one h6
    simp only [List.length_cons, Nat.add_right_cancel_iff] at h1 h2 h3 h4 h5 h6
    obtain ⟨rows, g1, g2, g3⟩ := ih as bs cs ds es ls h1 h2 h3 h4 h5 h6
    refine ⟨_, by unfold mkRows; rw [g1], by simp [g2], ?_⟩
    intro i r hr
    cases i with
    | zero => simp at hr; subst hr; simp
    | succ i => simp only [List.getElem?_cons_succ] at hr ⊢; exact g3 i r hr

theorem diffs_map (f : Int → Int) : ∀ (n : Nat) (a b : Int), b - a = n →
    diffs ((intRange a (b + 1)).map f) = (intRange a b).map (fun k => f (k + 1) - f k) := by
  intro n
  induction n with
  | zero =>
    intro a b h
    have : b = a := by omega
    subst this
    rw [intRange_cons (by omega : b < b + 1)]
    have e : intRange (b + 1) (b + 1) = [] := by simp [intRange]
    have e' : intRange b b = [] := by simp [intRange]
    rw [e, e']; rfl
  | succ n ih =>
    intro a b h
    have := ih (a + 1) b (by omega)
    rw [intRange_cons (by omega : a < b + 1), intRange_cons (by omega : a < b)]
    rw [intRange_cons (by omega : a + 1 < b + 1)] at this ⊢
    simp only [List.map_cons, diffs] at this ⊢
    rw [this]

theorem Timeline.WF.wsBounds_eq {tl : Timeline L} (_wf : tl.WF) {a b : Int} (h0 : 0 ≤ a) (h1 : a ≤ b) (h2 : b < tl.len) :
    tl.wsBounds a b = (intRange a (b + 2)).map tl.bnd := by
  have hl : tl.len = tl.wsIdx.length := rfl
  unfold Timeline.wsBounds
  apply List.ext_getElem
  · split
    · simp only [List.length_append, List.length_drop, List.length_cons, List.length_nil, List.length_map, length_intRange]; omega
    · simp only [List.length_drop, List.length_take, List.length_map, length_intRange]; omega
  · intro i hi1 hi2
    simp only [List.length_map, length_intRange] at hi2
    rw [List.getElem_map, getElem_intRange]
    by_cases hb : b = tl.len - 1
    · simp only [hb, if_true]
      by_cases hi : i < (tl.wsIdx.drop a.toNat).length
      · rw [List.getElem_append_left hi, List.getElem_drop]
        simp only [List.length_drop] at hi
        obtain ⟨hh, e⟩ := tl.bnd_lt (k := a + i) (by omega) (by omega)
        rw [e]
        congr 1; omega
      · rw [List.getElem_append_right (by omega)]
        simp only [List.length_drop] at hi
        simp only [List.getElem_singleton]
        rw [tl.bnd_ge (by omega)]
    · simp only [hb, if_false]
      rw [List.getElem_drop, List.getElem_take]
      obtain ⟨hh, e⟩ := tl.bnd_lt (k := a + i) (by omega) (by omega)
      rw [e]
      congr 1; omega

theorem intRange_dropLast {a b : Int} (h : a ≤ b) : (intRange a (b + 1)).dropLast = intRange a b := by
  apply List.ext_getElem
  · simp only [List.length_dropLast, length_intRange]; omega
  · intro i h1 h2
    rw [List.getElem_dropLast, getElem_intRange, getElem_intRange]

theorem intRange_drop {a b : Int} (h : a ≤ b) : (intRange a (b + 1)).drop 1 = intRange (a + 1) (b + 1) := by
  rw [intRange_cons (by omega)]; rfl

/-- **C39.** The data frame for the workshifts `a..b` has `b - a + 1` rows; row `i` shows position, reference time, start time,
duration, end time and label of workshift `a + i` and, for each schedule, whether it is on duty. -/
theorem C39_to_dataframe {tb : Timeboard L} (h : tb.Reachable) {a b : Int} (h0 : 0 ≤ a) (h1 : a ≤ b) (h2 : b < tb.timeline.len) :
    ∃ rows, tb.toDataframe (some a) (some b) = .ok rows ∧ (rows.length : Int) = b - a + 1 ∧
      ∀ (i : Nat) (r : TbRow L), rows[i]? = some r →
        ∃ w, Workshift.new tb (a + i) = .ok w ∧ r.row.loc = w.loc ∧ r.row.label = w.label ∧
          w.toTimestamp tb = .ok r.row.wsRef ∧ w.startTime tb = .ok r.row.start ∧ w.endTime tb = .ok r.row.stop ∧
          w.duration tb = .ok r.row.duration ∧
          r.duty.map Prod.fst = tb.schedules.map Prod.fst ∧
          ∀ (j : Nat) (name : String) (s : Schedule L), tb.schedules[j]? = some (name, s) →
            ∃ d, r.duty[j]? = some (name, d) ∧ w.isOnDuty tb (some s) = .ok d := by
  have hv := h.valid
  have wf := hv.wf
  have hll := wf.labels_len
  have hl : tb.timeline.len = tb.timeline.wsIdx.length := rfl
  have hb := wf.wsBounds_eq h0 h1 h2
  have hb2 : b + 2 = b + 1 + 1 := by omega
  rw [hb2] at hb
  obtain ⟨n, hn⟩ : ∃ n : Nat, (n : Int) = b - a + 1 := ⟨(b - a + 1).toNat, by omega⟩
  have hstarts : (tb.timeline.wsBounds a b).dropLast.map tb.timeline.frame.unitStart =
      (intRange a (b + 1)).map (fun k => tb.timeline.frame.unitStart (tb.timeline.bnd k)) := by
    rw [hb, ← List.map_dropLast, intRange_dropLast (by omega), List.map_map]; rfl
  have hends : ((tb.timeline.wsBounds a b).drop 1).map (fun b => tb.timeline.frame.unitEnd (b - 1)) =
      (intRange a (b + 1)).map (fun k => tb.timeline.frame.unitStart (tb.timeline.bnd (k + 1)) - 1) := by
    rw [hb, ← List.map_drop, intRange_drop (by omega), List.map_map]
    apply List.ext_getElem
    · simp only [List.length_map, length_intRange]; omega
    · intro i g1 g2
      simp only [List.getElem_map, getElem_intRange, Function.comp_apply]
      rw [Frame.unitEnd_eq]
      have e1 : tb.timeline.bnd (a + 1 + ↑i) - 1 + 1 = tb.timeline.bnd (a + 1 + ↑i) := by omega
      have e2 : a + ↑i + 1 = a + 1 + ↑i := by omega
      rw [e1, e2]
  have hdur : diffs (tb.timeline.wsBounds a b) =
      (intRange a (b + 1)).map (fun k => tb.timeline.bnd (k + 1) - tb.timeline.bnd k) := by
    rw [hb, diffs_map _ n _ _ (by omega)]
  obtain ⟨rows, g1, g2, g3⟩ := mkRows_spec n (intRange a (b + 1))
    (if tb.timeline.refEnd then (intRange a (b + 1)).map (fun k => tb.timeline.frame.unitStart (tb.timeline.bnd (k + 1)) - 1)
      else (intRange a (b + 1)).map (fun k => tb.timeline.frame.unitStart (tb.timeline.bnd k)))
    ((intRange a (b + 1)).map (fun k => tb.timeline.frame.unitStart (tb.timeline.bnd k)))
    ((intRange a (b + 1)).map (fun k => tb.timeline.bnd (k + 1) - tb.timeline.bnd k))
    ((intRange a (b + 1)).map (fun k => tb.timeline.frame.unitStart (tb.timeline.bnd (k + 1)) - 1))
    ((tb.timeline.labels.take (b + 1).toNat).drop a.toNat)
    (by rw [length_intRange]; omega) (by split <;> (rw [List.length_map, length_intRange]; omega))
    (by rw [List.length_map, length_intRange]; omega) (by rw [List.length_map, length_intRange]; omega)
    (by rw [List.length_map, length_intRange]; omega) (by rw [List.length_drop, List.length_take]; omega)
  have hrng : 0 ≤ a ∧ a < tb.timeline.len ∧ 0 ≤ b ∧ b < tb.timeline.len := ⟨h0, by omega, by omega, h2⟩
  have htl : tb.timeline.toDataframe a b = .ok rows := by
    unfold Timeline.toDataframe
    rw [if_neg (by simpa using hrng)]
    simp only [hstarts, hends, hdur]
    exact g1
  refine ⟨rows.map (fun r => { row := r, duty := tb.schedules.map (fun p => (p.1, p.2.selector r.label)) }), ?_, ?_, ?_⟩
  · unfold Timeboard.toDataframe
    simp only [Option.getD_some]
    rw [if_neg (by simpa using hrng), htl]
  · rw [List.length_map, g2]; exact hn
  · intro i r hr
    rw [List.getElem?_map] at hr
    cases hri : rows[i]? with
    | none => rw [hri] at hr; cases hr
    | some x =>
      rw [hri] at hr
      simp only [Option.map_some, Option.some.injEq] at hr
      have hi : i < n := by
        have := (List.getElem?_eq_some_iff.1 hri).1; omega
      obtain ⟨r1, r2, r3, r4, r5, r6⟩ := g3 i x hri
      have hk0 : 0 ≤ a + i := by omega
      have hk1 : a + i < tb.timeline.len := by omega
      obtain ⟨w, hw, hwl, _, hlab, hs, he, hrf, hd⟩ := Workshift.exists_of_range hv none hk0 hk1
      have hget : (intRange a (b + 1))[i]? = some (a + i) := by
        rw [List.getElem?_eq_getElem (by rw [length_intRange]; omega), getElem_intRange]
      have hlab' : tb.timeline.labels[(a + i).toNat]? = some w.label := by
        obtain ⟨hh, e⟩ := wf.label_eq hk0 hk1
        rw [hlab] at e
        rw [List.getElem?_eq_getElem hh]
        simp only [Except.ok.injEq] at e
        rw [e]
      have hxl : x.label = w.label := by
        rw [List.getElem?_drop, List.getElem?_take, if_pos (by omega)] at r6
        have : a.toNat + i = (a + i).toNat := by omega
        rw [this, hlab'] at r6
        simpa using r6.symm
      have hrow : r.row = x := by rw [← hr]
      have hduty : r.duty = tb.schedules.map (fun p => (p.1, p.2.selector x.label)) := by rw [← hr]
      refine ⟨w, hw, ?_, ?_, ?_, ?_, ?_, ?_, ?_, ?_⟩
      · rw [hrow, hwl]; rw [hget] at r1; simpa using r1.symm
      · rw [hrow, hxl]
      · rw [hrf, hrow]
        unfold Timeline.refTime
        by_cases hre : tb.timeline.refEnd
        · simp only [hre, if_true, List.getElem?_map, hget, Option.map_some, Option.some.injEq] at r2 ⊢; rw [r2]
        · simp only [hre, if_false, List.getElem?_map, hget, Option.map_some, Option.some.injEq, Bool.false_eq_true] at r2 ⊢; rw [r2]
      · rw [hs, hrow]; rw [List.getElem?_map, hget] at r3; simp only [Option.map_some, Option.some.injEq] at r3; rw [r3]
      · rw [he, hrow]; rw [List.getElem?_map, hget] at r5; simp only [Option.map_some, Option.some.injEq] at r5; rw [r5]
      · rw [hd, hrow]; rw [List.getElem?_map, hget] at r4; simp only [Option.map_some, Option.some.injEq] at r4; rw [r4]
      · rw [hduty, List.map_map]; rfl
      · intro j name s hj
        refine ⟨s.selector x.label, ?_, ?_⟩
        · rw [hduty, List.getElem?_map, hj]; rfl
        · rw [Workshift.isOnDuty_eq (l := w.label) (by rw [hwl]; exact hlab), hxl]; rfl

/-- **C39**, the bounds: a missing bound is the first / the last workshift, a bound which is not the position of a workshift
is refused (AssertionError), and an interval shows its own workshifts. -/
theorem C39_bounds (tb : Timeboard L) (a b : Option Int) :
    tb.toDataframe a b = tb.toDataframe (some (a.getD 0)) (some (b.getD (tb.timeline.len - 1))) ∧
    (∀ x y, ¬ (0 ≤ x ∧ x < tb.timeline.len ∧ 0 ≤ y ∧ y < tb.timeline.len) →
      tb.toDataframe (some x) (some y) = .error .assertionError) ∧
    (∀ i j sch v, Interval.new tb (i, j) sch = .ok v → v.toDataframe tb = tb.toDataframe (some i) (some j)) := by
  refine ⟨rfl, ?_, ?_⟩
  · intro x y hxy
    unfold Timeboard.toDataframe
    simp only [Option.getD_some]
    rw [if_pos hxy]
  · intro i j sch v h
    obtain ⟨_, _, _, rfl⟩ := Interval.new_ok_iff.1 h
    rfl

example : (shifts.toDataframe (some 4) none).map (fun rows => rows.map (fun r => [r.row.loc, r.row.duration, r.row.label])) =
      .ok [[4, 10, 0], [5, 14, 6]] ∧
    (shifts.toDataframe (some 4) none).map (fun rows => rows.map (fun r => r.duty)) =
      .ok [[("on_duty", false)], [("on_duty", true)]] := by decide +kernel
example : (shifts.toDataframe (some 1) (some 1)).map (fun rows => rows.map (fun r => (r.row.start, r.row.wsRef, r.row.stop))) =
      .ok [(date 2017 10 30 + 18 * nsHour, date 2017 10 31 + 8 * nsHour - 1, date 2017 10 31 + 8 * nsHour - 1)] := by decide +kernel
example : (shifts.toDataframe (some 0) (some 6)).map (fun rows => rows.length) = .error .assertionError := by decide +kernel

/-- **C39**, positions in the wrong order: there are no rows. -/
theorem C39_reversed (tb : Timeboard L) {a b : Int} (h0 : 0 ≤ b) (h1 : b < a) (h2 : a < tb.timeline.len) :
    tb.toDataframe (some a) (some b) = .ok [] := by
  have hr : intRange a (b + 1) = [] := by
    apply List.eq_nil_iff_forall_not_mem.2
    intro x hx
    have := (mem_intRange a (b + 1) x).1 hx
    omega
  have hb : ∃ w : List Int, w.length ≤ 1 ∧ tb.timeline.wsBounds a b = w := by
    refine ⟨_, ?_, rfl⟩
    unfold Timeline.wsBounds
    rw [if_neg (by omega)]
    simp only [List.length_drop, List.length_take]
    omega
  obtain ⟨w, hw, hwb⟩ := hb
  have hl : (tb.timeline.labels.take (b + 1).toNat).drop a.toNat = [] := by
    apply List.eq_nil_of_length_eq_zero
    simp only [List.length_drop, List.length_take]
    omega
  unfold Timeboard.toDataframe
  simp only [Option.getD_some]
  rw [if_neg (by omega)]
  unfold Timeline.toDataframe
  rw [if_neg (by omega)]
  simp only [hwb, hr, hl]
  match w, hw with
  | [], _ => cases tb.timeline.refEnd <;> rfl
  | [x], _ => cases tb.timeline.refEnd <;> rfl

example : (shifts.toDataframe (some 4) (some 2)).map (fun rows => rows.length) = .ok 0 := by decide +kernel

/-! ### schedules -/

/-- `tb.schedules.get(name)`. -/
def Timeboard.getSchedule (tb : Timeboard L) (name : String) : Option (Schedule L) := tb.schedules.lookup name

theorem lookup_append_none {α β : Type} [BEq α] (l m : List (α × β)) (k : α) (h : l.lookup k = none) :
    (l ++ m).lookup k = m.lookup k := by
  induction l with
  | nil => rfl
  | cons p l ih =>
    obtain ⟨x, y⟩ := p
    simp only [List.cons_append, List.lookup_cons] at h ⊢
    split at h
    · cases h
    · rename_i hx; simp [ih h]

theorem lookup_append_some {α β : Type} [BEq α] (l m : List (α × β)) (k : α) (v : β) (h : l.lookup k = some v) :
    (l ++ m).lookup k = some v := by
  induction l with
  | nil => cases h
  | cons p l ih =>
    obtain ⟨x, y⟩ := p
    simp only [List.cons_append, List.lookup_cons] at h ⊢
    split at h
    · rename_i hx; simp [h]
    · rename_i hx; simp [ih h]

theorem lookup_isSome_iff (l : List (String × Schedule L)) (k : String) :
    (l.lookup k).isSome = l.any (fun p => p.1 == k) := by
  induction l with
  | nil => rfl
  | cons p l ih =>
    obtain ⟨x, y⟩ := p
    simp only [List.lookup_cons, List.any_cons]
    by_cases hx : k = x
    · subst hx; simp
    · have h1 : (k == x) = false := by simpa using hx
      have h2 : (x == k) = false := by simpa using fun h : x = k => hx h.symm
      simp [h1, h2, ih]

theorem lookup_filter_ne (l : List (String × Schedule L)) (k k' : String) :
    (l.filter (fun p => !(p.1 == k))).lookup k' = if k' = k then none else l.lookup k' := by
  induction l with
  | nil => simp
  | cons p l ih =>
    obtain ⟨x, y⟩ := p
    by_cases hx : x = k
    · subst hx
      simp only [List.filter_cons, beq_self_eq_true, Bool.not_true, Bool.false_eq_true, if_false, List.lookup_cons]
      rw [ih]
      by_cases hk : k' = x
      · simp [hk]
      · have h1 : (k' == x) = false := by simpa using hk
        simp [h1, hk]
    · have h1 : (!(x == k)) = true := by simpa using hx
      simp only [List.filter_cons, h1, if_true, List.lookup_cons]
      rw [ih]
      by_cases hk : k' = x
      · subst hk; simp [hx]
      · have h2 : (k' == x) = false := by simpa using hk
        simp [h2]

/-- **C40.** Adding a schedule: refused with KeyError if and only if the name is taken, otherwise the new schedule has the given
name and selector and is registered under its name, every other name means what it meant before. -/
theorem C40_add_schedule (tb : Timeboard L) (name : String) (sel : L → Bool) :
    ((tb.getSchedule name).isSome → tb.addSchedule name sel = .error .keyError) ∧
    (tb.getSchedule name = none → ∃ s tb', tb.addSchedule name sel = .ok (s, tb') ∧
      s.name = name ∧ s.selector = sel ∧ tb'.Owns s ∧
      tb'.getSchedule name = some s ∧ (∀ other, other ≠ name → tb'.getSchedule other = tb.getSchedule other) ∧
      tb'.defaultSchedule = tb.defaultSchedule ∧ tb'.timeline = tb.timeline ∧ tb'.worktimeSource = tb.worktimeSource) := by
  have hi : (tb.getSchedule name).isSome = tb.schedules.any (fun p => p.1 == name) := lookup_isSome_iff _ _
  constructor
  · intro h
    unfold Timeboard.addSchedule
    rw [if_pos (by rw [← hi]; exact h)]
  · intro h
    have h' : ¬ (tb.schedules.any (fun p => p.1 == name) = true) := by rw [← hi, h]; simp
    have e : tb.addSchedule name sel = .ok (Schedule.new tb.timeline name sel,
        { tb with schedules := tb.schedules ++ [(name, Schedule.new tb.timeline name sel)] }) := by
      unfold Timeboard.addSchedule; rw [if_neg h']
    refine ⟨_, _, e, rfl, rfl, rfl, ?_, ?_, rfl, rfl, rfl⟩
    · unfold Timeboard.getSchedule at h ⊢
      rw [lookup_append_none _ _ _ h]
      simp
    · intro other ho
      unfold Timeboard.getSchedule at h ⊢
      cases hl : tb.schedules.lookup other with
      | none => rw [lookup_append_none _ _ _ hl]; simp [ho]
      | some v => exact lookup_append_some _ _ _ _ hl

/-- **C40**, dropping a schedule: refused with KeyError if and only if its name is not registered, otherwise exactly this name
disappears. -/
theorem C40_drop_schedule (tb : Timeboard L) (s : Schedule L) :
    (tb.getSchedule s.name = none → tb.dropSchedule s = .error .keyError) ∧
    ((tb.getSchedule s.name).isSome → ∃ tb', tb.dropSchedule s = .ok tb' ∧
      tb'.getSchedule s.name = none ∧ (∀ other, other ≠ s.name → tb'.getSchedule other = tb.getSchedule other) ∧
      tb'.defaultSchedule = tb.defaultSchedule ∧ tb'.timeline = tb.timeline ∧ tb'.worktimeSource = tb.worktimeSource) := by
  have hi : (tb.getSchedule s.name).isSome = tb.schedules.any (fun p => p.1 == s.name) := lookup_isSome_iff _ _
  constructor
  · intro h
    unfold Timeboard.dropSchedule
    rw [if_neg (by rw [← hi, h]; simp)]
  · intro h
    have e : tb.dropSchedule s = .ok { tb with schedules := tb.schedules.filter (fun p => !(p.1 == s.name)) } := by
      unfold Timeboard.dropSchedule; rw [if_pos (by rw [← hi]; exact h)]
    refine ⟨_, e, ?_, ?_, rfl, rfl, rfl⟩
    · show (tb.schedules.filter (fun p => !(p.1 == s.name))).lookup s.name = none
      rw [lookup_filter_ne, if_pos rfl]
    · intro other ho
      show (tb.schedules.filter (fun p => !(p.1 == s.name))).lookup other = _
      rw [lookup_filter_ne, if_neg ho]; rfl

/-- A timeboard obtained from another one by adding or dropping a schedule. -/
def Timeboard.ScheduleStep (tb tb' : Timeboard L) : Prop :=
  (∃ name sel s, tb.addSchedule name sel = .ok (s, tb')) ∨ ∃ s, tb.dropSchedule s = .ok tb'

/-- **C40**, calculations without an explicit schedule do not notice that a schedule was added or dropped; nor do
calculations with an explicit schedule. -/
theorem C40_calculations_unaffected {tb tb' : Timeboard L} (h : tb.ScheduleStep tb') :
    (∀ t sch, tb'.getWorkshift t sch = tb.getWorkshift t sch) ∧
    (∀ ref length period clip closed sch, tb'.getInterval ref length period clip closed sch =
      tb.getInterval ref length period clip closed sch) ∧
    (∀ (w : Workshift L) n d sch, w.rollforward tb' n d sch = w.rollforward tb n d sch ∧
      w.rollback tb' n d sch = w.rollback tb n d sch ∧ w.isOnDuty tb' sch = w.isOnDuty tb sch) ∧
    (∀ (v : Interval L) d sch, v.count tb' d sch = v.count tb d sch ∧
      (v.workshifts tb' d sch = v.workshifts tb d sch) ∧ v.totalDuration tb' d sch = v.totalDuration tb d sch ∧
      ∀ num, v.worktime tb' num d sch = v.worktime tb num d sch) := by
  obtain ⟨x, rfl⟩ : ∃ x, tb' = { tb with schedules := x } := by
    rcases h with ⟨name, sel, s, h⟩ | ⟨s, h⟩
    · unfold Timeboard.addSchedule at h
      split at h
      · cases h
      · cases h; exact ⟨_, rfl⟩
    · unfold Timeboard.dropSchedule at h
      split at h
      · cases h; exact ⟨_, rfl⟩
      · cases h
  exact ⟨fun _ _ => rfl, fun _ _ _ _ _ _ => rfl, fun _ _ _ _ => ⟨rfl, rfl, rfl⟩, fun _ _ _ => ⟨rfl, rfl, rfl, fun _ => rfl⟩⟩

example : (week.addSchedule "long" (fun l => decide (l > 7))).map (fun r => (r.1.name, r.2.schedules.map Prod.fst)) =
      .ok ("long", ["on_duty", "long"]) ∧
    ((week.addSchedule "long" (fun l => decide (l > 7))).bind (fun r => r.2.addSchedule "long" (fun _ => true))).map (fun _ => ()) =
      .error .keyError ∧
    ((week.addSchedule "long" (fun l => decide (l > 7))).bind (fun r => r.2.dropSchedule week.defaultSchedule)).map
      (fun tb => (tb.schedules.map Prod.fst, tb.defaultSchedule.name)) = .ok (["long"], "on_duty") := by decide +kernel

end TB
