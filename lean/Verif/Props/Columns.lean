import Verif.Model.Columns
import Verif.Lemmas.Dict
import Verif.Props.Dataframe
/-! Property C67: columns of the data frame. -/
namespace TB
open TB.Ex
variable {L : Type}

theorem TbRow.get_columns (r : TbRow L) (hd : (r.duty.map Prod.fst).Nodup) (name : String) :
    r.columns.get? name = ((Dict.get? r.duty name).map Cell.duty).or (r.row.columns.get? name) := by
  unfold TbRow.columns
  rw [Dict.get?_update_distinct]
  · congr 1
    induction r.duty with
    | nil => rfl
    | cons x xs ih =>
      rcases x with ⟨a, v⟩
      rw [List.map_cons, Dict.get?_cons, Dict.get?_cons, ih]
      split <;> rfl
  · unfold Dict.Distinct
    rw [List.map_map]
    exact hd

/-- **C67 (partial).** The data frame has one row per workshift of the range; under the name of each schedule it has the duty of
the workshift; under the names of the five built-in columns it has the reference time, start, duration, end and label of the
workshift, provided that no schedule has that name.  What is missing: the proviso; see the next theorem. -/
theorem C67_columns_partial {tb : Timeboard L} (h : tb.Reachable) {a b : Int} (h0 : 0 ≤ a) (h1 : a ≤ b) (h2 : b < tb.timeline.len) :
    ∃ rows, tb.dataframe (some a) (some b) = .ok rows ∧ rows.map Prod.fst = intRange a (b + 1) ∧
      ∀ k cols, (k, cols) ∈ rows → ∃ w, Workshift.new tb k = .ok w ∧
        (∀ name s, tb.getSchedule name = some s → ∃ d, w.isOnDuty tb (some s) = .ok d ∧ cols.get? name = some (.duty d)) ∧
        (∀ name, tb.getSchedule name = none →
          (name = "label" → cols.get? name = some (.label w.label)) ∧
          (name = "ws_ref" → ∃ t, w.toTimestamp tb = .ok t ∧ cols.get? name = some (.time t)) ∧
          (name = "start" → ∃ t, w.startTime tb = .ok t ∧ cols.get? name = some (.time t)) ∧
          (name = "end" → ∃ t, w.endTime tb = .ok t ∧ cols.get? name = some (.time t)) ∧
          (name = "duration" → ∃ n, w.duration tb = .ok n ∧ cols.get? name = some (.number n)) ∧
          (name ∉ ["label", "ws_ref", "start", "end", "duration"] → cols.get? name = none)) := by
  have hvd := h.valid
  obtain ⟨rows, e1, e2, e3⟩ := C39_to_dataframe h h0 h1 h2
  refine ⟨rows.map (fun r => (r.row.loc, r.columns)), by unfold Timeboard.dataframe; rw [e1]; rfl, ?_, ?_⟩
  · rw [List.map_map]
    apply List.ext_getElem?
    intro i
    rw [List.getElem?_map]
    rcases Nat.lt_or_ge i rows.length with hi | hi
    · obtain ⟨w, g1, g2, _⟩ := e3 i rows[i] (List.getElem?_eq_getElem hi)
      rw [List.getElem?_eq_getElem hi]
      simp only [Option.map_some, Function.comp]
      rw [g2, Workshift.new_loc g1]
      symm
      rw [List.getElem?_eq_some_iff]
      exact ⟨by rw [length_intRange]; omega, by rw [getElem_intRange]⟩
    · rw [List.getElem?_eq_none hi, List.getElem?_eq_none (by rw [length_intRange]; omega)]
      rfl
  · intro k cols hm
    rw [List.mem_map] at hm
    obtain ⟨r, hr, hk⟩ := hm
    simp only [Prod.mk.injEq] at hk
    obtain ⟨rfl, rfl⟩ := hk
    obtain ⟨i, hi, rfl⟩ := List.getElem_of_mem hr
    obtain ⟨w, g1, g2, g3, g4, g5, g6, g7, g8, g9⟩ := e3 i rows[i] (List.getElem?_eq_getElem hi)
    have hnd : (rows[i].duty.map Prod.fst).Nodup := by rw [g8]; exact hvd.names
    have hloc := Workshift.new_loc g1
    refine ⟨w, by rw [g2, hloc]; exact g1, ?_, ?_⟩
    · intro name s hs
      unfold Timeboard.getSchedule at hs
      obtain ⟨j, hj⟩ : ∃ j : Nat, tb.schedules[j]? = some (name, s) := by
        obtain ⟨l₁, l₂, e, _⟩ := List.lookup_eq_some_iff.1 hs
        exact List.getElem?_of_mem (by rw [e]; simp)
      obtain ⟨d, hd1, hd2⟩ := g9 j name s hj
      refine ⟨d, hd2, ?_⟩
      rw [TbRow.get_columns _ hnd, (Dict.mem_iff hnd name d).1 (List.mem_of_getElem? hd1)]
      rfl
    · intro name hn
      have hno : Dict.get? rows[i].duty name = none := by
        cases hg : Dict.get? rows[i].duty name with
        | none => rfl
        | some d =>
          exfalso
          have := List.mem_map_of_mem (f := Prod.fst) ((Dict.mem_iff hnd name d).2 hg)
          rw [g8] at this
          unfold Timeboard.getSchedule at hn
          rw [List.lookup_eq_none_iff] at hn
          obtain ⟨p, hp, hp2⟩ := List.mem_map.1 this
          have := hn p hp
          rw [hp2] at this; simp at this
      have hc : rows[i].columns.get? name = rows[i].row.columns.get? name := by
        rw [TbRow.get_columns _ hnd, hno]; rfl
      rw [hc]
      refine ⟨?_, ?_, ?_, ?_, ?_, ?_⟩
      · rintro rfl; rw [← g3]; rfl
      · rintro rfl; exact ⟨_, g4, rfl⟩
      · rintro rfl; exact ⟨_, g5, rfl⟩
      · rintro rfl; exact ⟨_, g6, rfl⟩
      · rintro rfl; exact ⟨_, g7, rfl⟩
      · intro hnot
        simp only [List.mem_cons, not_or, List.not_mem_nil, not_false_eq_true, and_true] at hnot
        obtain ⟨a1, a2, a3, a4, a5⟩ := hnot
        unfold Row.columns
        simp only [Dict.get?_cons, Dict.get?_nil, Ne.symm a1, Ne.symm a2, Ne.symm a3, Ne.symm a4, Ne.symm a5, if_false]

/-- **C67, what fails.** The name of a schedule is arbitrary, but a schedule called "label" makes the labels disappear from the
data frame. -/
theorem C67_column_displaced :
    ∃ s tb, week.addSchedule "label" (fun l => decide (7 < l)) = .ok (s, tb) ∧ tb.Reachable ∧
      (tb.dataframe (some 1) (some 2)).map (List.map (fun r => r.2.get? "label")) = .ok [some (.duty false), some (.duty true)] ∧
      (week.dataframe (some 1) (some 2)).map (List.map (fun r => r.2.get? "label")) = .ok [some (.label 0), some (.label 8)] := by
  refine ⟨_, _, rfl, .add (name := "label") week_reachable rfl, ?_, ?_⟩ <;> decide +kernel

/-- An overlap which is void. -/
def exVoid : Except Err (Interval Int) := do
  let u ← Interval.new week (2, 8)
  let v ← Interval.new week (15, 20)
  u.overlap week v

/-- **C58, data frame.** A void interval makes an empty data frame. -/
theorem C58_void_dataframe {tb : Timeboard L} (h : tb.Reachable) {v : Interval L} (hv : tb.HasInterval v) (hvoid : v.isVoid = true) :
    v.toDataframe tb = .ok [] ∧ tb.dataframe (some v.lo) (some v.hi) = .ok [] := by
  have hvd := h.valid
  have fv := hv.fine hvd
  have h0 := fv.nonneg
  have h1 := fv.lt
  have h2 : v.hi < v.lo := by
    rcases fv.shape with hp | hh
    · rw [hp.not_void] at hvoid; cases hvoid
    · exact hh.hi_lt_lo
  have hb : ∃ x, tb.timeline.wsBounds v.lo v.hi = [] ∨ tb.timeline.wsBounds v.lo v.hi = [x] := by
    unfold Timeline.wsBounds
    rw [if_neg (by omega)]
    have hl : ((tb.timeline.wsIdx.take (v.hi + 2).toNat).drop v.lo.toNat).length ≤ 1 := by
      rw [List.length_drop, List.length_take]; omega
    match hx : (tb.timeline.wsIdx.take (v.hi + 2).toNat).drop v.lo.toNat, hl with
    | [], _ => exact ⟨0, .inl rfl⟩
    | [x], _ => exact ⟨x, .inr rfl⟩
  have hrows : tb.timeline.toDataframe v.lo v.hi = .ok [] := by
    unfold Timeline.toDataframe
    rw [if_neg (by omega)]
    have hls : (tb.timeline.labels.take (v.hi + 1).toNat).drop v.lo.toNat = [] := by
      apply List.drop_eq_nil_of_le
      rw [List.length_take]; omega
    simp only [hls, intRange_empty (show v.hi + 1 ≤ v.lo by omega)]
    obtain ⟨x, hx | hx⟩ := hb <;> rw [hx] <;> cases tb.timeline.refEnd <;> rfl
  have hrows2 : tb.toDataframe (some v.lo) (some v.hi) = .ok [] := by
    unfold Timeboard.toDataframe
    simp only [Option.getD_some]
    rw [if_neg (by omega), hrows]
    rfl
  refine ⟨hrows2, ?_⟩
  unfold Timeboard.dataframe
  rw [hrows2]; rfl

example : ∃ v, exVoid = .ok v ∧ v.isVoid = true ∧ v.toDataframe week = .ok [] :=
  ⟨_, rfl, by decide +kernel, by decide +kernel⟩

end TB
