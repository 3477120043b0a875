import Verif.Spec.Labels
import Verif.Model.Interval
import Verif.Lemmas.Layout4
/-! Timeboards with other labels. -/
namespace TB
variable {L M : Type} {g : L → M}

/-! ### Correspondence of calls -/

theorem Corresponds.bind {α β α' β' : Type} {R : α → β → Prop} {S : α' → β' → Prop} {x : Except Err α} {y : Except Err β} {f : α → Except Err α'} {k : β → Except Err β'}
    (h : Corresponds R x y) (hf : ∀ a b, R a b → Corresponds S (f a) (k b)) : Corresponds S (x >>= f) (y >>= k) := by
  cases h with
  | error e => exact .error e
  | ok r => exact hf _ _ r

theorem Corresponds.map {α β α' β' : Type} {R : α → β → Prop} {S : α' → β' → Prop} {x : Except Err α} {y : Except Err β} {f : α → α'} {k : β → β'}
    (h : Corresponds R x y) (hf : ∀ a b, R a b → S (f a) (k b)) : Corresponds S (x.map f) (y.map k) := by
  cases h with
  | error e => exact .error e
  | ok r => exact .ok (hf _ _ r)

theorem Corresponds.of_same {α : Type} (x : Except Err α) : Corresponds (fun a b => b = a) x x := by
  cases x with
  | error e => exact .error e
  | ok a => exact .ok rfl

theorem Corresponds.same {α : Type} {x y : Except Err α} (h : Corresponds (fun a b => b = a) x y) : y = x := by
  cases h with
  | error e => rfl
  | ok r => rw [r]

theorem Corresponds.mapM {α : Type} {β β' : Type} {R : β → β' → Prop} {f : α → Except Err β} {k : α → Except Err β'} (h : ∀ a, Corresponds R (f a) (k a)) :
    ∀ xs : List α, Corresponds (ListRenamed R) (xs.mapM f) (xs.mapM k)
  | [] => .ok .nil
  | x :: xs => by
    rw [List.mapM_cons, List.mapM_cons]
    refine (h x).bind (fun a b r => ?_)
    exact (Corresponds.mapM h xs).bind (fun as bs rs => .ok (.cons r rs))

theorem OptRenamed.getD {o : Option (Schedule L)} {o' : Option (Schedule M)} {s : Schedule L} {s' : Schedule M} (h : OptRenamed g o o') (hs : s.Renamed g s') :
    (o.getD s).Renamed g (o'.getD s') := by
  cases h with
  | none => exact hs
  | some h => exact h

/-! ### Organizing -/

/-- The state with other labels. -/
def TLState.map (g : L → M) (st : TLState L) : TLState M := ⟨fun i => g (st.labels i), st.mask, st.heap.map g⟩

/-- The cycle with other elements. -/
def Cycle.relabel {α β : Type} (g : α → β) (c : Cycle α) : Cycle β := ⟨c.saved.map g, c.rest.map g⟩

theorem Cycle.next_relabel {α β : Type} (g : α → β) (c : Cycle α) : (c.relabel g).next = c.next.map (fun r => (g r.1, r.2.relabel g)) := by
  obtain ⟨s, r⟩ := c
  cases r with
  | cons x xs => rfl
  | nil => cases s <;> rfl

theorem Heap.map_apply (h : Heap L) (id : Nat) : h.map g id = (h id).relabel g := rfl

theorem Heap.map_set (h : Heap L) (id : Nat) (c : Cycle L) : (h.set id c).map g = (h.map g).set id (c.relabel g) := by
  funext j
  by_cases e : j = id
  · subst e; rw [Heap.set_same, Heap.map_apply, Heap.set_same]
  · rw [Heap.set_other _ _ e, Heap.map_apply, Heap.set_other _ _ e, Heap.map_apply]

def Src.relabel (g : L → M) : Src L → Src M
  | .fresh c => .fresh (c.relabel g)
  | .shared id => .shared id

theorem Src.next_relabel (s : Src L) (h : Heap L) : (s.relabel g).next (h.map g) = (s.next h).map (fun r => (g r.1, r.2.1.relabel g, r.2.2.map g)) := by
  cases s with
  | fresh c =>
    simp only [Src.relabel, Src.next, Cycle.next_relabel]
    cases c.next <;> rfl
  | shared id =>
    simp only [Src.relabel, Src.next, Heap.map_apply, Cycle.next_relabel]
    cases (h id).next with
    | none => rfl
    | some r => simp only [Option.map_some, Src.relabel, Heap.map_set]

theorem Src.take_relabel (n : Nat) : ∀ (s : Src L) (h : Heap L), Src.take n (s.relabel g) (h.map g) = (Src.take n s h).map (fun r => (r.1.map g, r.2.1.relabel g, r.2.2.map g)) := by
  induction n with
  | zero => intro s h; rfl
  | succ n ih =>
    intro s h
    unfold Src.take
    rw [Src.next_relabel]
    cases s.next h with
    | none => rfl
    | some r =>
      simp only [Option.map_some]
      rw [ih]
      cases Src.take n r.2.1 r.2.2 with
      | none => rfl
      | some q => rfl

theorem Pattern.src_map (p : Pattern L) : (p.map g).src = p.src.relabel g := by cases p <;> rfl

theorem skiperatorTake_relabel (p : Pattern L) (skip n : Nat) (h : Heap L) :
    skiperatorTake (p.map g) skip n (h.map g) = (skiperatorTake p skip n h).map (fun r => (r.1.map g, r.2.map g)) := by
  unfold skiperatorTake
  rw [Pattern.src_map, Src.take_relabel]
  cases Src.take skip p.src h with
  | none => rfl
  | some r =>
    simp only [Option.map_some]
    rw [Src.take_relabel]
    cases Src.take n r.2.1 r.2.2 <;> rfl

/-- The element does the same with other labels. -/
def StepSim (g : L → M) (p : Step L) (p' : Step M) : Prop := ∀ s st, p' s (st.map g) = (p s st).map (TLState.map g)

theorem applyPattern_sim (p : Pattern L) : StepSim g (applyPattern p) (applyPattern (p.map g)) := by
  intro s st
  unfold applyPattern
  split
  · rfl
  · rw [show (st.map g).heap = st.heap.map g from rfl, skiperatorTake_relabel]
    cases skiperatorTake p s.skipLeft.toNat (s.last + 1 - s.first).toNat st.heap with
    | none => rfl
    | some r =>
      simp only [Option.map_some, Except.map, TLState.map]
      congr 2
      funext i
      split
      · rw [List.getElem?_map]
        cases r.1[(i - s.first).toNat]? <;> rfl
      · rfl

theorem makeCompound_sim (l : L) : StepSim g (makeCompound l) (makeCompound (g l)) := by
  intro s st
  unfold makeCompound
  simp only [Except.map, TLState.map]
  congr 2
  funext i
  split <;> rfl

theorem Cycle.next_list {α β : Type} {R : α → β → Prop} {c : Cycle α} {c' : Cycle β} (h1 : ListRenamed R c.saved c'.saved) (h2 : ListRenamed R c.rest c'.rest) :
    (c.next = none ∧ c'.next = none) ∨ ∃ x d y d', c.next = some (x, d) ∧ c'.next = some (y, d') ∧ R x y ∧ ListRenamed R d.saved d'.saved ∧ ListRenamed R d.rest d'.rest := by
  obtain ⟨s, r⟩ := c
  obtain ⟨s', r'⟩ := c'
  simp only at h1 h2
  cases h2 with
  | cons hx hr => exact .inr ⟨_, _, _, _, rfl, rfl, hx, h1, hr⟩
  | nil =>
    cases h1 with
    | nil => exact .inl ⟨rfl, rfl⟩
    | cons hx hr => exact .inr ⟨_, _, _, _, rfl, rfl, hx, .cons hx hr, hr⟩

theorem zipRun_sim : ∀ (ss : List Span) {c : Cycle (Step L)} {c' : Cycle (Step M)} (st : TLState L), ListRenamed (StepSim g) c.saved c'.saved → ListRenamed (StepSim g) c.rest c'.rest →
    zipRun ss c' (st.map g) = (zipRun ss c st).map (TLState.map g)
  | [], _, _, _ => fun _ _ => rfl
  | s :: ss, c, c', st => by
    intro h1 h2
    unfold zipRun
    rcases Cycle.next_list h1 h2 with ⟨e1, e2⟩ | ⟨x, d, y, d', e1, e2, hx, k1, k2⟩
    · rw [e1, e2]; rfl
    · rw [e1, e2]
      simp only
      rw [hx s st]
      cases x s st with
      | error e => rfl
      | ok st1 => exact zipRun_sim ss st1 k1 k2

theorem zipRunRP_sim (id : Nat) : ∀ (ss : List Span) (st : TLState L), zipRunRP ss id (st.map g) = (zipRunRP ss id st).map (TLState.map g)
  | [], _ => rfl
  | s :: ss, st => by
    unfold zipRunRP
    rw [show (st.map g).heap id = (st.heap id).relabel g from rfl, Cycle.next_relabel]
    cases (st.heap id).next with
    | none => rfl
    | some r =>
      simp only [Option.map_some]
      have e := makeCompound_sim (g := g) r.1 s { st with heap := st.heap.set id r.2 }
      have e' : TLState.map g { st with heap := st.heap.set id r.2 } = { st.map g with heap := (st.map g).heap.set id (r.2.relabel g) } := by
        simp only [TLState.map, Heap.map_set]
      rw [e'] at e
      rw [e]
      cases makeCompound r.1 s { st with heap := st.heap.set id r.2 } with
      | error e => rfl
      | ok st1 => exact zipRunRP_sim id ss st1

mutual
theorem Layout.run_sim (f : Frame) : ∀ l : Layout L, StepSim g (Layout.run f l) (Layout.run f (l.map g))
  | .organizer cut elems => by
    intro s st
    simp only [Layout.run, Layout.map]
    cases f.cutSpan cut s with
    | error e => rfl
    | ok ss => exact zipRun_sim ss st (Layout.runAll_sim f elems) (Layout.runAll_sim f elems)
  | .organizerRP cut i => by
    intro s st
    simp only [Layout.run, Layout.map]
    cases f.cutSpan cut s with
    | error e => rfl
    | ok ss => exact zipRunRP_sim i ss st
  | .pattern p => by simp only [Layout.run, Layout.map]; exact applyPattern_sim p
  | .label l => by simp only [Layout.run, Layout.map]; exact makeCompound_sim l
theorem Layout.runAll_sim (f : Frame) : ∀ ls : List (Layout L), ListRenamed (StepSim g) (Layout.runAll f ls) (Layout.runAll f (Layout.mapAll g ls))
  | [] => .nil
  | l :: ls => .cons (Layout.run_sim f l) (Layout.runAll_sim f ls)
end

/-! ### Timelines -/

/-- The timeline with other labels. -/
def Timeline.relabel (g : L → M) (tl : Timeline L) : Timeline M := ⟨tl.frame, tl.wsIdx, tl.labels.map g, tl.frameband, tl.refEnd⟩

theorem makeOrganizer_map (l : Layout L) : makeOrganizer (l.map g) = (makeOrganizer l).map (Layout.map g) := by
  match l with
  | .organizer _ _ => rfl
  | .organizerRP _ _ => rfl
  | .pattern (.list _) => rfl
  | .pattern (.rp _) => rfl
  | .label _ => rfl

theorem Timeline.new_relabel (f : Frame) (o : Layout L) (r : Bool) (d : L) (heap : Heap L) :
    Timeline.new f (some (o.map g)) r (g d) (heap.map g) = (Timeline.new f (some o) r d heap).map (fun p => (p.1.relabel g, p.2.map g)) := by
  unfold Timeline.new
  simp only
  have e := Layout.run_sim (g := g) f o { first := 0, last := (f.n : Int) - 1 } { labels := fun _ => d, mask := fun _ => true, heap := heap }
  rw [show TLState.map g { labels := fun _ => d, mask := fun _ => true, heap := heap } = { labels := fun _ => g d, mask := fun _ => true, heap := heap.map g } from rfl] at e
  rw [e]
  cases Layout.run f o { first := 0, last := (f.n : Int) - 1 } { labels := fun _ => d, mask := fun _ => true, heap := heap } with
  | error e => rfl
  | ok st =>
    simp only [Except.map, Timeline.relabel, TLState.map, List.map_map]
    rfl

theorem Timeline.wsPosition_relabel (tl : Timeline L) (t : Time) : (tl.relabel g).wsPosition t = tl.wsPosition t := rfl

theorem Timeline.amendLocate_relabel (tl : Timeline L) (r : Bool) : ∀ (items : List (Time × L)) (acc : List (Int × L)),
    (tl.relabel g).amendLocate r (items.map (fun p => (p.1, g p.2))) (acc.map (fun p => (p.1, g p.2))) = (tl.amendLocate r items acc).map (fun l => l.map (fun p => (p.1, g p.2)))
  | [], _ => rfl
  | (t, v) :: items, acc => by
    simp only [List.map_cons, Timeline.amendLocate, Timeline.wsPosition_relabel]
    cases tl.wsPosition t with
    | error e =>
      cases e
      case outOfBounds =>
        simp only
        split
        · rfl
        · exact Timeline.amendLocate_relabel tl r items acc
      all_goals rfl
    | ok loc =>
      simp only [List.any_map]
      rw [show ((fun p : Int × M => p.1 == loc) ∘ fun p : Int × L => (p.1, g p.2)) = fun p => p.1 == loc from rfl]
      split
      · rfl
      · have := Timeline.amendLocate_relabel tl r items (acc ++ [(loc, v)])
        rw [List.map_append] at this
        exact this

theorem ilocAssign_relabel : ∀ (items : List (Int × L)) (ls : List L), ilocAssign (ls.map g) (items.map (fun p => (p.1, g p.2))) = (ilocAssign ls items).map g
  | [], _ => rfl
  | p :: ps, ls => by
    have := ilocAssign_relabel ps (ls.set p.1.toNat p.2)
    rw [List.map_set] at this
    exact this

theorem Timeline.amend_relabel (tl : Timeline L) (items : List (Time × L)) (r : Bool) :
    (tl.relabel g).amend (items.map (fun p => (p.1, g p.2))) r = (tl.amend items r).map (Timeline.relabel g) := by
  unfold Timeline.amend
  have := Timeline.amendLocate_relabel (g := g) tl r items []
  rw [List.map_nil] at this
  rw [this]
  cases tl.amendLocate r items [] with
  | error e => rfl
  | ok l =>
    simp only [Except.map, Timeline.relabel]
    rw [ilocAssign_relabel]

theorem nonzeroBy_relabel (sel : M → Bool) : ∀ (ls : List L) (i : Int), nonzeroBy sel (ls.map g) i = nonzeroBy (fun x => sel (g x)) ls i
  | [], _ => rfl
  | l :: ls, i => by simp only [List.map_cons, nonzeroBy, nonzeroBy_relabel sel ls (i + 1)]

theorem Schedule.new_renamed (tl : Timeline L) (name : String) (sel : M → Bool) (sel0 : L → Bool) (h : ∀ x, sel (g x) = sel0 x) :
    (Schedule.new tl name sel0).Renamed g (Schedule.new (tl.relabel g) name sel) := by
  have : sel0 = fun x => sel (g x) := funext (fun x => (h x).symm)
  subst this
  exact ⟨rfl, fun _ => rfl, nonzeroBy_relabel _ _ _, nonzeroBy_relabel _ _ _⟩

/-- The relation between the timeboards in the form used below. -/
structure Timeboard.Sim (g : L → M) (tb : Timeboard L) (tb' : Timeboard M) : Prop where
  timeline : tb'.timeline = tb.timeline.relabel g
  schedule : tb.defaultSchedule.Renamed g tb'.defaultSchedule
  schedules : ListRenamed (fun p q => q.1 = p.1 ∧ p.2.Renamed g q.2) tb.schedules tb'.schedules
  source : tb'.worktimeSource = tb.worktimeSource

theorem Timeboard.Renamed.sim {tb : Timeboard L} {tb' : Timeboard M} (h : tb.Renamed g tb') : tb.Sim g tb' := by
  refine ⟨?_, h.schedule, h.schedules, h.source⟩
  obtain ⟨⟨f, w, l, b, r⟩, _, _, _⟩ := tb'
  obtain ⟨h1, h2, h3, h4, h5, _, _, _⟩ := h
  simp only at h1 h2 h3 h4 h5
  subst h1 h2 h3 h4 h5
  rfl

theorem Timeboard.Sim.renamed {tb : Timeboard L} {tb' : Timeboard M} (h : tb.Sim g tb') : tb.Renamed g tb' := by
  obtain ⟨h1, h2, h3, h4⟩ := h
  exact ⟨by rw [h1]; rfl, by rw [h1]; rfl, by rw [h1]; rfl, by rw [h1]; rfl, by rw [h1]; rfl, h2, h3, h4⟩

theorem Timeboard.new_renamed (a : Args L) (sel : M → Bool) (hsel : ∀ x, sel (g x) = a.selector x) (heap : Heap L) :
    Corresponds (fun p q => p.1.Renamed g q.1 ∧ q.2 = p.2.map g) (Timeboard.new a heap) (Timeboard.new (a.map g sel) (heap.map g)) := by
  unfold Timeboard.new
  rw [show (a.map g sel).layout = a.layout.map g from rfl, makeOrganizer_map]
  cases makeOrganizer a.layout with
  | error e => exact .error e
  | ok org =>
    simp only [Except.map]
    rw [show (a.map g sel).worktimeSource = a.worktimeSource from rfl]
    split
    · exact .error _
    · rw [show (a.map g sel).freq = a.freq from rfl, show (a.map g sel).start = a.start from rfl, show (a.map g sel).stop = a.stop from rfl,
        show (a.map g sel).refEnd = a.refEnd from rfl, show (a.map g sel).defaultLabel = g a.defaultLabel from rfl,
        show (a.map g sel).amendments = a.amendments.map (fun p => (p.1, g p.2)) from rfl, show (a.map g sel).defaultName = a.defaultName from rfl,
        show (a.map g sel).selector = sel from rfl]
      cases Frame.new a.freq a.start a.stop with
      | error e => exact .error e
      | ok f =>
        simp only
        rw [Timeline.new_relabel]
        cases Timeline.new f (some org) a.refEnd a.defaultLabel heap with
        | error e => exact .error e
        | ok p =>
          simp only [Except.map]
          rw [Timeline.amend_relabel]
          cases p.1.amend a.amendments with
          | error e => exact .error e
          | ok tl =>
            have hs := Schedule.new_renamed tl (a.defaultName.getD "on_duty") sel a.selector hsel
            exact .ok ⟨Timeboard.Sim.renamed ⟨rfl, hs, .cons ⟨rfl, hs⟩ .nil, rfl⟩, rfl⟩

end TB
