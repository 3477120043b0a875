import Verif.Lemmas.Intervals
import Verif.Model.Iteration
import Verif.Examples.Boards
/-! Property C66: loops over one interval. -/
namespace TB
open TB.Ex
variable {L : Type}

/-- A body which may use the interval in any way except iterating over that very object. -/
def Passive {β : Type} (body : Workshift L → IntervalObj L → Except Err β × IntervalObj L) (f : Workshift L → β) : Prop :=
  ∀ w o, body w o = (.ok (f w), o)

theorem IntervalObj.rounds_passive {β : Type} {body : Workshift L → IntervalObj L → Except Err β × IntervalObj L} {f : Workshift L → β}
    (hb : Passive body f) (v : Interval L) : ∀ (ws : List (Workshift L)) (fuel : Nat), ws.length < fuel →
    IntervalObj.rounds body fuel ⟨v, some (.ok ws)⟩ = some (.ok (ws.map f), ⟨v, some (.ok [])⟩) := by
  intro ws
  induction ws with
  | nil =>
    intro fuel hf
    cases fuel with
    | zero => simp at hf
    | succ n => rfl
  | cons w ws ih =>
    intro fuel hf
    cases fuel with
    | zero => simp at hf
    | succ n =>
      simp only [List.length_cons] at hf
      unfold IntervalObj.rounds
      simp only [IntervalObj.next, hb w, ih n (by omega), List.map_cons]

/-- **C66 (partial).** Whatever was done with the interval object before (iterators of it abandoned half-way, exhausted or never
created), a loop over it visits all workshifts of the interval in ascending order, once each, as long as the body does not
iterate over the same object.  What is missing: independence of nested loops, which fails (next theorem). -/
theorem C66_loop_visits_all_partial {tb : Timeboard L} (h : tb.Reachable) {v : Interval L} (hv : tb.HasInterval v) (o : IntervalObj L)
    (ho : o.interval = v) {β : Type} (body : Workshift L → IntervalObj L → Except Err β × IntervalObj L) (f : Workshift L → β)
    (hb : Passive body f) :
    ∃ ws, v.iter tb = .ok ws ∧ tb.ListsDuty v.schedule .any v.lo v.hi ws ∧ (ws.length : Int) = v.len ∧
      ∀ fuel, ws.length < fuel → ∃ o', o.forLoop tb body fuel = some (.ok (ws.map f), o') ∧ o'.interval = v := by
  have hvd := h.valid
  have fv := hv.fine hvd
  obtain ⟨ws, h1, h2, h3⟩ := fv.workshifts_spec hvd (sch := none) (by intro x hx; cases hx) (duty := .any) (.inr (.inr rfl))
  have h0 := fv.nonneg
  have hlt := fv.lt
  have hmem : ∀ k, k ∈ ws.map (fun w => w.loc) ↔ (v.lo ≤ k ∧ k ≤ v.hi ∧ tb.DutyAt v.schedule .any k) := by
    intro k
    rw [h2, hvd.mem_dutyPositions_iff (by omega) (by omega)]
    simp only [Option.getD_none]
  refine ⟨ws, h1, ⟨?_, ?_, ?_⟩, ?_, ?_⟩
  · rw [h2]; exact tb.pairwise_dutyPositions _ _ _ _
  · intro w hw
    have := h3 w hw
    simp only [Option.getD_none] at this
    unfold Workshift.new
    rw [this.2]
    simp only [Option.getD_some]
    rw [← this.1]
  · intro k
    rw [← hmem, List.mem_map]
  · have := congrArg List.length h2
    rw [List.length_map, hvd.dutyPositions_any _ (by omega) (by omega)] at this
    unfold Interval.len
    have e := fv.len_eq
    unfold Interval.len at e
    rw [this, e]
  · intro fuel hf
    refine ⟨⟨v, some (.ok [])⟩, ?_, rfl⟩
    unfold IntervalObj.forLoop IntervalObj.iter
    rw [ho, h1]
    exact IntervalObj.rounds_passive hb v ws fuel hf

/-- **C66, what fails.** Of two nested loops over the same object the outer one is ended by the inner one: of the pairs of
workshifts only those beginning with the first workshift are visited. -/
theorem C66_nested_loops_fail {tb : Timeboard L} {v : Interval L} {w : Workshift L} {ws : List (Workshift L)}
    (hw : v.iter tb = .ok (w :: ws)) (g : Option (WsGenerator L)) (n m : Nat) (hn : ws.length + 1 < n) (hm : 1 < m) :
    IntervalObj.forLoop ⟨v, g⟩ tb (IntervalObj.pairsWith tb n) m =
      some (.ok [(w :: ws).map (fun b => (w, b))], ⟨v, some (.ok [])⟩) := by
  have hw' : v.workshifts tb .any = .ok (w :: ws) := hw
  match m, hm with
  | m + 2, _ =>
    unfold IntervalObj.forLoop IntervalObj.iter IntervalObj.rounds
    simp only [hw', IntervalObj.next]
    have hp : Passive (fun (b : Workshift L) (o' : IntervalObj L) => ((.ok (w, b) : Except Err (Workshift L × Workshift L)), o')) (fun b => (w, b)) :=
      fun _ _ => rfl
    have e := IntervalObj.rounds_passive hp v (w :: ws) n (by simpa using hn)
    have e2 : IntervalObj.pairsWith tb n w ⟨v, some (.ok ws)⟩ = (.ok ((w :: ws).map (fun b => (w, b))), ⟨v, some (.ok [])⟩) := by
      unfold IntervalObj.pairsWith IntervalObj.forLoop IntervalObj.iter
      simp only [hw', e]
    rw [e2]
    simp only [IntervalObj.rounds, IntervalObj.next]

/-- `next(v)` of a fresh interval raises AttributeError. -/
theorem C66_next_before_iter (v : Interval L) : (IntervalObj.next ⟨v, none⟩).1 = .error .attributeError := rfl

/-- On the interval 2..4 of the example: a loop collects the positions; nested loops collect 3 pairs of positions, not 9. -/
example : (do
      let u ← Interval.new week (2, 4)
      match (IntervalObj.mk u none).forLoop week (fun w o => (.ok w.loc, o)) 10 with
      | some (r, _) => r
      | none => .error .runtimeError) = .ok [2, 3, 4] ∧
    (do
      let u ← Interval.new week (2, 4)
      match (IntervalObj.mk u none).forLoop week (IntervalObj.pairsWith week 10) 10 with
      | some (r, _) => r.map (List.map (List.map (fun (p : Workshift Int × Workshift Int) => (p.1.loc, p.2.loc))))
      | none => .error .runtimeError) = .ok [[(2, 2), (2, 3), (2, 4)]] := by decide +kernel

end TB
