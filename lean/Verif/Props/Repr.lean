import Verif.Lemmas.Repr
import Verif.Examples.Boards
/-! # C84: the printed form of an organizer is code which recreates it -/
namespace TB
variable {L : Type}

/-- The things of an object by their names. -/
theorem Obj.Consistent.lookup {o : Obj L} (h : o.Consistent) (n : Name) (x : Thing L) (hx : (n, x) ∈ o.named) :
    Dict.get? o.named n = some x := by
  obtain ⟨y, hy⟩ := (Dict.mem_keys o.named n).1 (List.mem_map.2 ⟨_, hx, rfl⟩)
  rw [hy]
  unfold Dict.get? at hy
  cases hf : List.find? (fun x => decide (x.1 = n)) o.named with
  | none => rw [hf] at hy; cases hy
  | some z =>
    rw [hf] at hy
    rcases z with ⟨m, z⟩
    have h1 := List.find?_some hf
    simp only [decide_eq_true_eq] at h1; subst h1
    cases hy
    exact congrArg some (h m z x (List.mem_of_find?_eq_some hf) hx)

/-- The own name of an organizer. -/
def Obj.id : Obj L → Nat
  | .organizer i _ _ => i
  | .organizerRP i _ _ _ => i
  | _ => 0

/-- The lines of an organizer end with its own line. -/
theorem Obj.lines_last {o : Obj L} (ho : o.IsOrganizer) (hc : o.Consistent) :
    ∃ d e, o.lines [] = d ++ [(Name.org o.id, e)] ∧ (Name.org o.id, Thing.obj o) ∈ o.named := by
  cases o with
  | organizer i c es =>
    refine ⟨Obj.linesAll es (c.lines []), .organizer c.arg (es.map Obj.arg), ?_, by simp [Obj.named, Obj.id]⟩
    simp only [Obj.lines]
    rw [if_neg (by simp [Dict.has]), Dict.set_new]
    · rfl
    · rw [Bool.eq_false_iff]
      intro hh
      rcases Obj.linesAll_only es _ _ hh with hh | ⟨x, hx⟩
      · rcases c.lines_only [] _ hh with hh | ⟨x, hx⟩
        · cases hh
        · exact CutObj.named_org c i x hx
      · have := hc (.org i) x (.obj (.organizer i c es)) (by simp [Obj.named, hx]) (by simp [Obj.named])
        subst this
        have := Obj.namedAll_count es i _ hx
        simp only [Obj.count] at this; omega
  | organizerRP i c r ls =>
    refine ⟨rpLines r ls (c.lines []), .organizerRP c.arg (.rp r), ?_, by simp [Obj.named, Obj.id]⟩
    simp only [Obj.lines]
    rw [if_neg (by simp [Dict.has]), Dict.set_new]
    · rfl
    · rw [Bool.eq_false_iff]
      intro hh
      rcases rpLines_only r ls _ _ hh with hh | hx
      · rcases c.lines_only [] _ hh with hh | ⟨x, hx⟩
        · cases hh
        · exact CutObj.named_org c i x hx
      · cases hx
  | rp => cases ho
  | list => cases ho
  | label => cases ho

/-- All lines can be executed and leave a copy of the organizer in its variable. -/
theorem Obj.lines_exec {o : Obj L} (ho : o.IsOrganizer) (hc : o.Consistent) (hb : o.ByName) (s : Store L) :
    ∃ s' ρ l, execute (o.lines []) s = some s' ∧ s'.vars (.org o.id) = some (.layout l) ∧ IsCopy o s ρ l s'.heap := by
  have hι := hc.lookup
  obtain ⟨s', ρ, g, hd⟩ := Obj.lines_good (ι := Dict.get? o.named) (s0 := s) o [] s _root_.id hι hb (Good.nil _ s)
  obtain ⟨d, e, hl, hm⟩ := Obj.lines_last ho hc
  have hhas : (o.lines []).has (.org o.id) := by rw [hl]; simp [Dict.has]
  obtain ⟨x, hx, hv⟩ := g.vars _ hhas
  rw [hι _ _ hm] at hx; cases hx
  refine ⟨s', ρ, _, g.exec, hv, rfl, ?_, ?_, ?_, g.others⟩
  · intro i ls h; exact g.lo i (hd.rps i ls h)
  · intro i ls j ls' h h' he; exact g.inj i j (hd.rps i ls h) (hd.rps j ls' h') he
  · intro i ls h; exact g.fresh i ls (hd.rps i ls h) (hι _ _ h)

/-- **C84.** Executing the code `repr(organizer)` in any state of the interpreter succeeds, and its value is a copy of the
organizer: the same cuts and structures all the way down, with new RememberingPatterns which are shared in the same way
and start from the beginning. -/
theorem C84_repr_recreates (o : Obj L) (ho : o.IsOrganizer) (hc : o.Consistent) (hb : o.ByName) (s : Store L) :
    ∃ p ρ l s', o.repr = some p ∧ evalRepr p s = some (.layout l, s') ∧ IsCopy o s ρ l s'.heap := by
  obtain ⟨s', ρ, l, he, hv, hcopy⟩ := Obj.lines_exec ho hc hb s
  obtain ⟨d, e, hl, _⟩ := Obj.lines_last ho hc
  rw [hl, execute_append] at he
  cases h1 : execute d s with
  | none => rw [h1] at he; cases he
  | some s1 =>
    rw [h1] at he
    simp only [Option.bind_some, execute] at he
    cases h2 : e.eval s1 with
    | none => rw [h2] at he; cases he
    | some v =>
      rw [h2] at he
      simp only [Option.some.injEq] at he
      subst he
      simp only [Store.assign, if_true, Option.some.injEq] at hv
      refine ⟨(d, e), ρ, l, v.2, ?_, ?_, hcopy⟩
      · unfold Obj.repr; rw [hl]; simp
      · unfold evalRepr
        simp only [h1, h2, ← hv]

/-- Every object is created by one line only, and only objects of which the organizer consists are created; the last line
is for the organizer itself. -/
theorem C84_created_once (o : Obj L) (ho : o.IsOrganizer) (hc : o.Consistent) (hb : o.ByName) :
    ((o.lines []).map Prod.fst).Nodup ∧ (∀ n ∈ (o.lines []).map Prod.fst, ∃ x, (n, x) ∈ o.named) ∧
    (∀ i labels, o.HasRP i labels → Name.rp i ∈ (o.lines []).map Prod.fst) ∧
    ((o.lines []).map Prod.fst).getLast? = some (.org o.id) := by
  obtain ⟨d, e, hl, _⟩ := Obj.lines_last ho hc
  obtain ⟨s', ρ, g, hd⟩ := Obj.lines_good (ι := Dict.get? o.named) (s0 := ⟨fun _ => none, fun _ => Cycle.start [], 0⟩) o [] _ _root_.id hc.lookup hb
    (Good.nil _ _)
  refine ⟨g.dist, ?_, ?_, by rw [hl]; simp⟩
  · intro n hn
    obtain ⟨v, hv⟩ := (Dict.mem_keys _ _).1 hn
    have : (o.lines []).has n := by rw [Dict.has_eq, hv]; rfl
    rcases Obj.lines_only o [] n this with h | h
    · cases h
    · exact h
  · intro i ls h
    have := hd.rps i ls h
    rw [Dict.has_eq, Option.isSome_iff_exists] at this
    exact (Dict.mem_keys _ _).2 this

/-- A copy of a layout gives the same timeboard as the layout itself did when its RememberingPatterns had not been
used. -/
theorem C84_same_timeboard (o : Obj L) (s : Store L) (ρ : Nat → Nat) (l : Layout L) (heap : Heap L)
    (hcopy : IsCopy o s ρ l heap) (a : Args L) (ha : a.layout = o.layout) (h : Heap L) (hu : o.Unused h) :
    (Timeboard.new { a with layout := l } heap).map Prod.fst = (Timeboard.new a h).map Prod.fst := by
  have := Timeboard.new_rename (P := fun i => ∃ ls, o.HasRP i ls) (ρ := ρ)
    (fun i j ⟨ls, hi⟩ ⟨ls', hj⟩ he => hcopy.distinct i ls j ls' hi hj he) a
    (by intro i hi; rw [ha] at hi; exact (Obj.mem_rps o i).1 hi) (h := h) (h' := heap)
    (by rintro i ⟨ls, hi⟩; rw [hcopy.unused i ls hi, hu i ls hi])
  rw [this, hcopy.same, ha]

/-- **C84.** Executing the code printed for a timeboard which was made without optional parameters makes the same
timeboard (or raises the same exception). -/
theorem C84_timeboard_repr (o : Obj L) (hc : o.Consistent) (hb : o.ByName) (freq : Freq) (start stop : Time) (noLabel : L)
    (truth : L → Bool) (h : Heap L) (hu : o.Unused h) (c : TimeboardCode L)
    (hcode : Timeboard.code freq start stop o = some c) (s : Store L) :
    ∃ r, c.eval s noLabel truth = some r ∧
      r.map Prod.fst = (Timeboard.new (plainArgs freq start stop o.layout noLabel truth) h).map Prod.fst := by
  have key : o.IsOrganizer → ∃ r, (TimeboardCode.mk (o.lines []) freq start stop (.name (.org o.id))).eval s noLabel truth = some r ∧
      r.map Prod.fst = (Timeboard.new (plainArgs freq start stop o.layout noLabel truth) h).map Prod.fst := by
    intro ho
    obtain ⟨s', ρ, l, he, hv, hcopy⟩ := Obj.lines_exec ho hc hb s
    refine ⟨Timeboard.new (plainArgs freq start stop l noLabel truth) s'.heap, by simp only [TimeboardCode.eval, he, hv], ?_⟩
    exact C84_same_timeboard o s ρ l s'.heap hcopy (plainArgs freq start stop o.layout noLabel truth) rfl h hu
  cases o with
  | organizer i cc es => cases hcode; exact key trivial
  | organizerRP i cc r ls => cases hcode; exact key trivial
  | list xs =>
    cases hcode
    refine ⟨_, rfl, ?_⟩
    have := Timeboard.new_rename (P := fun _ => False) (ρ := _root_.id) (by intro i j h; cases h)
      (plainArgs freq start stop (Layout.pattern (.list xs)) noLabel truth) (by intro i hi; simp [plainArgs, Layout.rps] at hi)
      (h := h) (h' := s.heap) (by intro i hi; cases hi)
    rw [show (Obj.list xs : Obj L).layout = .pattern (.list xs) from rfl, this]
    rfl
  | rp => cases hcode
  | label => cases hcode

/-- The code does not recreate an organizer whose marker has been given a function of the user: the text of a function is
not among the names of rules, and the code raises KeyError. -/
theorem C84_custom_rule (i k : Nat) (each : Freq) (a : Kwargs) (as : List Kwargs) (text : String) (f : HowFn) (xs : List L)
    (ht : HowName.ofText text = none) (s : Store L) :
    ∃ p, (Obj.organizer i (.marker k ⟨each, a :: as, .function text f⟩) [.list xs]).repr = some p ∧ evalRepr p s = none := by
  refine ⟨([(Name.mrk k, Expr.marker ⟨each, some (a :: as, text)⟩)], .organizer (.name (.mrk k)) [.list xs]), ?_, ?_⟩
  · simp [Obj.repr, Obj.lines, Obj.linesAll, CutObj.lines, CutObj.arg, Obj.arg, MarkerObj.code, Dict.has, Dict.set, How.text]
  · simp [evalRepr, execute, Expr.eval, MarkerCode.eval, ht]

/-! ## Examples -/
namespace Ex

/-- A cycle of shifts shared by the seasons: winter, from 16 September, resumes the cycle on Mondays; summer, from 1 May,
lets each week be one shift.  Seasons are marked by a marker with `at`. -/
def seasonal : Obj Int :=
  .organizer 1 (.marker 2 ⟨fA, [.offset (some { months := 4 }), .offset (some { months := 8, days := 15 })], .named .fromStartOfEach⟩)
    [.organizer 3 (.marker 4 ⟨fW, [], .named .fromStartOfEach⟩) [.rp 5 [1, 2, 0], .list [0, 0]],
     .organizerRP 6 (.marker 4 ⟨fW, [], .named .fromStartOfEach⟩) 5 [1, 2, 0]]

theorem seasonal_consistent : seasonal.Consistent := by
  intro n x y hx hy
  simp only [seasonal, Obj.named, Obj.namedAll, CutObj.named, List.mem_cons, List.mem_append, Prod.mk.injEq, List.not_mem_nil, or_false] at hx hy
  rcases n with k | k | k <;> simp only [reduceCtorEq, false_and, or_false, false_or, Name.org.injEq, Name.mrk.injEq, Name.rp.injEq] at hx hy
  · rcases hx with ⟨rfl, rfl⟩ | ⟨rfl, rfl⟩ | ⟨rfl, rfl⟩ <;> simp at hy <;> exact hy.symm
  · rcases hx with ⟨rfl, rfl⟩ | ⟨rfl, rfl⟩ | ⟨rfl, rfl⟩ <;> simp at hy <;> exact hy.symm
  · rcases hx with ⟨rfl, rfl⟩ | ⟨rfl, rfl⟩ <;> simp at hy <;> exact hy.symm

theorem seasonal_byName : seasonal.ByName := by
  intro n m hm
  simp only [seasonal, Obj.named, Obj.namedAll, CutObj.named, List.mem_cons, List.mem_append, Prod.mk.injEq, List.not_mem_nil, or_false,
    reduceCtorEq, and_false, false_or, Thing.marker.injEq] at hm
  rcases hm with ⟨_, rfl⟩ | ⟨_, rfl⟩ | ⟨_, rfl⟩ <;> exact .inr ⟨_, rfl⟩

/- The names in the order of creation: the marker with `at`, the shared pattern (once), winter, summer, the whole. -/
#guard (seasonal.lines []).map Prod.fst = [.mrk 2, .rp 5, .org 3, .org 6, .org 1]

/-- The code is executed where nothing is defined and 7 patterns existed; the copies of the shared pattern are one new
pattern, the eighth. -/
example : ∃ p ρ l s', seasonal.repr = some p ∧
    evalRepr p ⟨fun _ => none, heap0, 7⟩ = some (.layout l, s') ∧ IsCopy seasonal ⟨fun _ => none, heap0, 7⟩ ρ l s'.heap :=
  C84_repr_recreates seasonal trivial seasonal_consistent seasonal_byName _

/-- The pattern has not been used. -/
example : seasonal.Unused (heap0.set 5 (Cycle.start [1, 2, 0])) := by
  intro i ls h
  simp only [Obj.HasRP, seasonal, Obj.named, Obj.namedAll, CutObj.named, List.mem_cons, List.mem_append, Prod.mk.injEq, List.not_mem_nil,
    or_false, reduceCtorEq, false_and, false_or, Name.rp.injEq, Thing.obj.injEq, Obj.rp.injEq] at h
  rcases h with ⟨rfl, _, rfl⟩ | ⟨rfl, _, rfl⟩ <;> rfl

/-- The timeboard printed and made anew has two weeks of days, then weeks of summer which
continue the cycle. -/
example : (match Timeboard.code fD (date 2017 4 17) (date 2017 5 20) seasonal with
    | none => none
    | some c => match c.eval ⟨fun _ => none, heap0, 7⟩ (-1) (fun l => decide (l > 0)) with
      | some (.ok (tb, _)) => some tb.timeline.labels
      | _ => none) = some [1, 2, 0, 1, 2, 0, 1, 0, 0, 0, 0, 0, 0, 0, 2, 0, 1] := by decide +kernel

end Ex

end TB
