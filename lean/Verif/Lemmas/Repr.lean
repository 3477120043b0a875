import Verif.Spec.Repr
import Verif.Lemmas.Dict
/-! The printed form of layouts: helper lemmas. -/
namespace TB
variable {L : Type}

theorem HowName.ofText_text (n : HowName) : HowName.ofText n.text = some n := by cases n <;> rfl

theorem MarkerObj.eval_code {m : MarkerObj} (h : m.ByName) : m.code.eval = some m.marker := by
  rcases m with ⟨each, ats, how⟩
  unfold MarkerObj.code MarkerCode.eval MarkerObj.marker
  cases ats with
  | nil => rfl
  | cons a as =>
    rcases h with h | ⟨n, h⟩
    · cases h
    · simp only at h; subst h
      simp [How.text, HowName.ofText_text, How.fn]

theorem Dict.set_new {K V : Type} [DecidableEq K] {d : Dict K V} {k : K} (h : d.has k = false) (v : V) :
    d.set k v = d ++ [(k, v)] := by
  unfold Dict.set
  unfold Dict.has at h
  rw [if_neg (by simp [h])]

theorem Dict.has_set {K V : Type} [DecidableEq K] (d : Dict K V) (k k' : K) (v : V) :
    (d.set k v).has k' = (decide (k' = k) || d.has k') := by
  rw [Dict.has_eq, Dict.has_eq, Dict.get?_set]
  by_cases h : k' = k <;> simp [h]

theorem execute_append (d e : Lines L) (s : Store L) :
    execute (d ++ e) s = (execute d s).bind (execute e) := by
  induction d generalizing s with
  | nil => rfl
  | cons x xs ih =>
    rcases x with ⟨n, a⟩
    show (match a.eval s with | none => none | some (v, s') => execute (xs ++ e) (s'.assign n v)) = _
    rw [show execute ((n, a) :: xs) s = (match a.eval s with | none => none | some (v, s') => execute xs (s'.assign n v)) from rfl]
    cases a.eval s with
    | none => rfl
    | some v => exact ih _

/-- The value of a thing. -/
def Thing.value (ρ : Nat → Nat) : Thing L → Value L
  | .marker m => .marker m.marker
  | .obj o => .layout (o.layout.rename ρ)

/-- The state after the lines `d`; `ι` tells the thing of a name. -/
structure Good (ι : Name → Option (Thing L)) (s0 : Store L) (d : Lines L) (s : Store L) (ρ : Nat → Nat) : Prop where
  exec : execute d s0 = some s
  dist : d.Distinct
  vars : ∀ n, d.has n → ∃ x, ι n = some x ∧ s.vars n = some (x.value ρ)
  lo : ∀ i, d.has (.rp i) → s0.next ≤ ρ i
  hi : ∀ i, d.has (.rp i) → ρ i < s.next
  inj : ∀ i j, d.has (.rp i) → d.has (.rp j) → ρ i = ρ j → i = j
  fresh : ∀ i ls, d.has (.rp i) → ι (.rp i) = some (.obj (.rp i ls)) → s.heap (ρ i) = Cycle.start ls
  next : s0.next ≤ s.next
  others : ∀ j, j < s0.next → s.heap j = s0.heap j
  closed : ∀ n o, d.has n → ι n = some (.obj o) → ∀ i ls, o.HasRP i ls → d.has (.rp i)

theorem Good.nil (ι : Name → Option (Thing L)) (s0 : Store L) : Good ι s0 [] s0 id where
  exec := rfl
  dist := Dict.Distinct.nil
  vars := by intro n h; cases h
  lo := by intro n h; cases h
  hi := by intro n h; cases h
  inj := by intro n _ h; cases h
  fresh := by intro n _ h; cases h
  next := Nat.le_refl _
  others := fun _ _ => rfl
  closed := by intro n _ h; cases h

/-- A line which does not create a RememberingPattern. -/
theorem Good.add {ι : Name → Option (Thing L)} {s0 s : Store L} {d : Lines L} {ρ : Nat → Nat} (g : Good ι s0 d s ρ)
    {n : Name} (hn : d.has n = false) (hrp : ∀ i, n ≠ .rp i) {x : Thing L} (hx : ι n = some x) {e : Expr L}
    (he : e.eval s = some (x.value ρ, s)) (hcl : ∀ o, x = .obj o → ∀ i ls, o.HasRP i ls → d.has (.rp i)) :
    Good ι s0 (d.set n e) (s.assign n (x.value ρ)) ρ := by
  have hrp' : ∀ i, (d.set n e).has (.rp i) → d.has (.rp i) := by
    intro i h
    rw [Dict.has_set] at h
    rcases Bool.or_eq_true _ _ ▸ h with h | h
    · exact absurd (of_decide_eq_true h).symm (hrp i)
    · exact h
  refine { exec := ?_, dist := g.dist.set _ _, vars := ?_, lo := fun i h => g.lo i (hrp' i h), hi := fun i h => g.hi i (hrp' i h),
           inj := fun i j h h' => g.inj i j (hrp' i h) (hrp' j h'), fresh := fun i ls h => g.fresh i ls (hrp' i h), next := g.next,
           others := g.others, closed := ?_ }
  · rw [Dict.set_new hn, execute_append, g.exec]
    show (match e.eval s with | none => none | some (v, s') => execute [] (s'.assign n v)) = _
    rw [he]; rfl
  · intro m hm
    by_cases h : m = n
    · subst h; exact ⟨x, hx, by simp [Store.assign]⟩
    · rw [Dict.has_set] at hm
      simp only [h, decide_false, Bool.false_or] at hm
      obtain ⟨y, hy, hy'⟩ := g.vars m hm
      exact ⟨y, hy, by simp [Store.assign, h, hy']⟩
  · intro m o hm ho i ls hi
    rw [Dict.has_set]
    by_cases h : m = n
    · subst h
      rw [hx] at ho
      simp [hcl o (Option.some.inj ho) i ls hi]
    · rw [Dict.has_set] at hm
      simp only [h, decide_false, Bool.false_or] at hm
      simp [g.closed m o hm ho i ls hi]

mutual
/-- The identities of the RememberingPatterns of a layout. -/
def Layout.rps : Layout L → List Nat
  | .organizer _ es => Layout.rpsAll es
  | .organizerRP _ i => [i]
  | .pattern (.rp i) => [i]
  | .pattern (.list _) => []
  | .label _ => []

/-- The identities of the RememberingPatterns of the elements. -/
def Layout.rpsAll : List (Layout L) → List Nat
  | [] => []
  | l :: ls => Layout.rps l ++ Layout.rpsAll ls
end

mutual
theorem Layout.rename_congr {ρ ρ' : Nat → Nat} : ∀ l : Layout L, (∀ i ∈ l.rps, ρ i = ρ' i) → l.rename ρ = l.rename ρ'
  | .organizer c es, h => by
    simp only [Layout.rename]
    rw [Layout.renameAll_congr es h]
  | .organizerRP c i, h => by
    simp only [Layout.rename]
    rw [h i (by simp [Layout.rps])]
  | .pattern (.rp i), h => by
    simp only [Layout.rename, Pattern.rename]
    rw [h i (by simp [Layout.rps])]
  | .pattern (.list _), _ => rfl
  | .label _, _ => rfl

theorem Layout.renameAll_congr {ρ ρ' : Nat → Nat} :
    ∀ ls : List (Layout L), (∀ i ∈ Layout.rpsAll ls, ρ i = ρ' i) → Layout.renameAll ρ ls = Layout.renameAll ρ' ls
  | [], _ => rfl
  | l :: ls, h => by
    simp only [Layout.renameAll]
    rw [Layout.rename_congr l (fun i hi => h i (by simp [Layout.rpsAll, hi])),
      Layout.renameAll_congr ls (fun i hi => h i (by simp [Layout.rpsAll, hi]))]
end

theorem CutObj.named_rp (c : CutObj) (i : Nat) (x : Thing L) : (Name.rp i, x) ∉ (c.named : List (Name × Thing L)) := by
  cases c <;> simp [CutObj.named]

theorem CutObj.named_org (c : CutObj) (i : Nat) (x : Thing L) : (Name.org i, x) ∉ (c.named : List (Name × Thing L)) := by
  cases c <;> simp [CutObj.named]

mutual
theorem Obj.mem_rps : ∀ (o : Obj L) (i : Nat), i ∈ o.layout.rps ↔ ∃ ls, o.HasRP i ls
  | .organizer k c es, i => by
    simp only [Obj.layout, Layout.rps, Obj.HasRP, Obj.named]
    rw [Obj.mem_rpsAll es i]
    simp [CutObj.named_rp]
  | .organizerRP k c r ls, i => by
    simp [Obj.layout, Layout.rps, Obj.HasRP, Obj.named, CutObj.named_rp]
  | .rp k ls, i => by simp [Obj.layout, Layout.rps, Obj.HasRP, Obj.named]
  | .list _, i => by simp [Obj.layout, Layout.rps, Obj.HasRP, Obj.named]
  | .label _, i => by simp [Obj.layout, Layout.rps, Obj.HasRP, Obj.named]

theorem Obj.mem_rpsAll : ∀ (es : List (Obj L)) (i : Nat),
    i ∈ Layout.rpsAll (Obj.layouts es) ↔ ∃ ls, (Name.rp i, Thing.obj (Obj.rp i ls)) ∈ Obj.namedAll es
  | [], i => by simp [Obj.layouts, Layout.rpsAll, Obj.namedAll]
  | e :: es, i => by
    simp only [Obj.layouts, Layout.rpsAll, List.mem_append, Obj.namedAll]
    rw [Obj.mem_rps e i, Obj.mem_rpsAll es i]
    simp only [Obj.HasRP]
    constructor
    · rintro (⟨ls, h⟩ | ⟨ls, h⟩)
      · exact ⟨ls, .inl h⟩
      · exact ⟨ls, .inr h⟩
    · rintro ⟨ls, h | h⟩
      · exact .inl ⟨ls, h⟩
      · exact .inr ⟨ls, h⟩
end

/-- A line which creates a RememberingPattern. -/
theorem Good.addRP {ι : Name → Option (Thing L)} {s0 s : Store L} {d : Lines L} {ρ : Nat → Nat} (g : Good ι s0 d s ρ)
    {r : Nat} (hn : d.has (.rp r) = false) {ls : List L} (hx : ι (.rp r) = some (.obj (.rp r ls))) :
    ∃ s' ρ', Good ι s0 (d.set (.rp r) (.rp ls)) s' ρ' := by
  let ρ' : Nat → Nat := fun i => if i = r then s.next else ρ i
  let s' : Store L := { s with heap := s.heap.set s.next (Cycle.start ls), next := s.next + 1 }
  have hother : ∀ i, i ≠ r → (d.set (.rp r) (.rp ls)).has (.rp i) → d.has (.rp i) := by
    intro i h h2
    rw [Dict.has_set] at h2
    simpa [h] using h2
  have e1 : ρ' r = s.next := by simp [ρ']
  have e2 : ∀ i, i ≠ r → ρ' i = ρ i := by intro i h; simp [ρ', h]
  refine ⟨s'.assign (.rp r) (.layout (.pattern (.rp s.next))), ρ', ?_⟩
  refine { exec := ?_, dist := g.dist.set _ _, vars := ?_, lo := ?_, hi := ?_, inj := ?_, fresh := ?_, next := ?_,
           others := ?_, closed := ?_ }
  · rw [Dict.set_new hn, execute_append, g.exec]; rfl
  · intro m hm
    by_cases h : m = .rp r
    · subst h
      exact ⟨_, hx, by simp [Store.assign, Thing.value, Obj.layout, Layout.rename, Pattern.rename, e1]⟩
    · rw [Dict.has_set] at hm
      simp only [h, decide_false, Bool.false_or] at hm
      obtain ⟨y, hy, hy'⟩ := g.vars m hm
      refine ⟨y, hy, ?_⟩
      simp only [Store.assign, h, if_false]
      show s.vars m = _
      rw [hy']
      cases y with
      | marker _ => rfl
      | obj o =>
        simp only [Thing.value]
        rw [Layout.rename_congr o.layout]
        intro i hi
        obtain ⟨ls', hl⟩ := (Obj.mem_rps o i).1 hi
        have := g.closed m o hm hy i ls' hl
        refine (e2 i ?_).symm
        rintro rfl
        rw [hn] at this; cases this
  · intro i hi
    by_cases h : i = r
    · subst h; rw [e1]; exact g.next
    · rw [e2 i h]; exact g.lo i (hother i h hi)
  · intro i hi
    show ρ' i < s.next + 1
    by_cases h : i = r
    · subst h; rw [e1]; omega
    · rw [e2 i h]; have := g.hi i (hother i h hi); omega
  · intro i j hi hj he
    by_cases h : i = r
    · by_cases h' : j = r
      · rw [h, h']
      · subst h
        rw [e1, e2 j h'] at he
        have := g.hi j (hother j h' hj); omega
    · by_cases h' : j = r
      · subst h'
        rw [e1, e2 i h] at he
        have := g.hi i (hother i h hi); omega
      · rw [e2 i h, e2 j h'] at he
        exact g.inj i j (hother i h hi) (hother j h' hj) he
  · intro i ls' hi hl
    show Heap.set s.heap s.next (Cycle.start ls) (ρ' i) = _
    by_cases h : i = r
    · subst h
      rw [hx] at hl
      cases hl
      rw [e1]; simp [Heap.set]
    · rw [e2 i h]
      have h1 := g.hi i (hother i h hi)
      have h2 := g.fresh i ls' (hother i h hi) hl
      unfold Heap.set
      rw [if_neg (by omega)]; exact h2
  · show s0.next ≤ s.next + 1
    have := g.next; omega
  · intro j hj
    show Heap.set s.heap s.next (Cycle.start ls) j = _
    have := g.next
    unfold Heap.set
    rw [if_neg (by omega)]; exact g.others j hj
  · intro m o hm ho i ls' hi
    rw [Dict.has_set]
    by_cases h : m = .rp r
    · subst h
      rw [hx] at ho
      cases ho
      simp only [Obj.HasRP, Obj.named, List.mem_singleton, Prod.mk.injEq] at hi
      simp [hi.1]
    · rw [Dict.has_set] at hm
      simp only [h, decide_false, Bool.false_or] at hm
      simp [g.closed m o hm ho i ls' hi]

theorem CutObj.lines_keep (c : CutObj) (d : Lines L) (n : Name) (h : d.has n) : (c.lines d).has n := by
  unfold CutObj.lines
  split
  · split
    · exact h
    · split
      · exact h
      · rw [Dict.has_set]; simp [h]
  · exact h

theorem CutObj.lines_only (c : CutObj) (d : Lines L) (n : Name) (h : (c.lines d).has n) :
    d.has n ∨ ∃ x, (n, x) ∈ (c.named : List (Name × Thing L)) := by
  unfold CutObj.lines at h
  split at h
  · split at h
    · exact .inl h
    · split at h
      · exact .inl h
      · rename_i i m _ _
        rw [Dict.has_set] at h
        by_cases h2 : n = .mrk i
        · subst h2; exact .inr ⟨.marker m, by simp [CutObj.named]⟩
        · simp only [h2, decide_false, Bool.false_or] at h
          exact .inl h
  · exact .inl h

theorem rpLines_keep (i : Nat) (ls : List L) (d : Lines L) (n : Name) (h : d.has n) : (rpLines i ls d).has n := by
  unfold rpLines
  split
  · exact h
  · rw [Dict.has_set]; simp [h]

theorem rpLines_has (i : Nat) (ls : List L) (d : Lines L) : (rpLines i ls d).has (.rp i) := by
  unfold rpLines
  split
  · assumption
  · rw [Dict.has_set]; simp

theorem rpLines_only (i : Nat) (ls : List L) (d : Lines L) (n : Name) (h : (rpLines i ls d).has n) : d.has n ∨ n = .rp i := by
  unfold rpLines at h
  split at h
  · exact .inl h
  · rw [Dict.has_set] at h
    by_cases h2 : n = .rp i
    · exact .inr h2
    · simp only [h2, decide_false, Bool.false_or] at h
      exact .inl h

mutual
theorem Obj.lines_keep : ∀ (o : Obj L) (d : Lines L) (n : Name), d.has n → (o.lines d).has n
  | .organizer i c es, d, n, h => by
    simp only [Obj.lines]
    split
    · exact h
    · rw [Dict.has_set, Obj.linesAll_keep es _ n (c.lines_keep d n h)]; simp
  | .organizerRP i c r ls, d, n, h => by
    simp only [Obj.lines]
    split
    · exact h
    · rw [Dict.has_set, rpLines_keep r ls _ n (c.lines_keep d n h)]; simp
  | .rp i ls, d, n, h => by simp only [Obj.lines]; exact rpLines_keep i ls d n h
  | .list _, d, n, h => by simpa only [Obj.lines] using h
  | .label _, d, n, h => by simpa only [Obj.lines] using h

theorem Obj.linesAll_keep : ∀ (es : List (Obj L)) (d : Lines L) (n : Name), d.has n → (Obj.linesAll es d).has n
  | [], d, n, h => by simpa only [Obj.linesAll] using h
  | e :: es, d, n, h => by
    simp only [Obj.linesAll]
    exact Obj.linesAll_keep es _ n (Obj.lines_keep e d n h)
end

mutual
theorem Obj.lines_only : ∀ (o : Obj L) (d : Lines L) (n : Name), (o.lines d).has n → d.has n ∨ ∃ x, (n, x) ∈ o.named
  | .organizer i c es, d, n, h => by
    simp only [Obj.lines] at h
    split at h
    · exact .inl h
    · rw [Dict.has_set] at h
      by_cases h2 : n = .org i
      · exact .inr ⟨_, by rw [h2]; simp only [Obj.named]; exact List.mem_cons_self⟩
      · simp only [h2, decide_false, Bool.false_or] at h
        rcases Obj.linesAll_only es _ n h with h | ⟨x, hx⟩
        · rcases c.lines_only d n h with h | ⟨x, hx⟩
          · exact .inl h
          · exact .inr ⟨x, by simp [Obj.named, hx]⟩
        · exact .inr ⟨x, by simp [Obj.named, hx]⟩
  | .organizerRP i c r ls, d, n, h => by
    simp only [Obj.lines] at h
    split at h
    · exact .inl h
    · rw [Dict.has_set] at h
      by_cases h2 : n = .org i
      · exact .inr ⟨_, by rw [h2]; simp only [Obj.named]; exact List.mem_cons_self⟩
      · simp only [h2, decide_false, Bool.false_or] at h
        rcases rpLines_only r ls _ n h with h | h
        · rcases c.lines_only d n h with h | ⟨x, hx⟩
          · exact .inl h
          · exact .inr ⟨x, by simp [Obj.named, hx]⟩
        · exact .inr ⟨.obj (.rp r ls), by simp [Obj.named, h]⟩
  | .rp i ls, d, n, h => by
    simp only [Obj.lines] at h
    rcases rpLines_only i ls _ n h with h | h
    · exact .inl h
    · exact .inr ⟨.obj (.rp i ls), by simp [Obj.named, h]⟩
  | .list _, d, n, h => .inl (by simpa only [Obj.lines] using h)
  | .label _, d, n, h => .inl (by simpa only [Obj.lines] using h)

theorem Obj.linesAll_only : ∀ (es : List (Obj L)) (d : Lines L) (n : Name),
    (Obj.linesAll es d).has n → d.has n ∨ ∃ x, (n, x) ∈ Obj.namedAll es
  | [], d, n, h => .inl (by simpa only [Obj.linesAll] using h)
  | e :: es, d, n, h => by
    simp only [Obj.linesAll] at h
    rcases Obj.linesAll_only es _ n h with h | ⟨x, hx⟩
    · rcases Obj.lines_only e d n h with h | ⟨x, hx⟩
      · exact .inl h
      · exact .inr ⟨x, by simp [Obj.namedAll, hx]⟩
    · exact .inr ⟨x, by simp [Obj.namedAll, hx]⟩
end

mutual
/-- The number of organizers. -/
def Obj.count : Obj L → Nat
  | .organizer _ _ es => Obj.countAll es + 1
  | .organizerRP .. => 1
  | _ => 0

/-- The number of organizers in the elements. -/
def Obj.countAll : List (Obj L) → Nat
  | [] => 0
  | e :: es => Obj.count e + Obj.countAll es
end

mutual
theorem Obj.named_count : ∀ (o : Obj L) (i : Nat) (p : Obj L), (Name.org i, Thing.obj p) ∈ o.named → p.count ≤ o.count
  | .organizer k c es, i, p, h => by
    simp only [Obj.named, List.mem_cons, List.mem_append, Prod.mk.injEq, CutObj.named_org, false_or] at h
    rcases h with ⟨_, h⟩ | h
    · cases h; exact Nat.le_refl _
    · have := Obj.namedAll_count es i p h
      simp only [Obj.count]; omega
  | .organizerRP k c r ls, i, p, h => by
    simp only [Obj.named, List.mem_cons, List.mem_append, Prod.mk.injEq, CutObj.named_org, false_or, List.not_mem_nil, or_false] at h
    rcases h with ⟨_, h⟩ | ⟨h, _⟩
    · cases h; exact Nat.le_refl _
    · cases h
  | .rp k ls, i, p, h => by simp [Obj.named] at h
  | .list _, i, p, h => by simp [Obj.named] at h
  | .label _, i, p, h => by simp [Obj.named] at h

theorem Obj.namedAll_count : ∀ (es : List (Obj L)) (i : Nat) (p : Obj L),
    (Name.org i, Thing.obj p) ∈ Obj.namedAll es → p.count ≤ Obj.countAll es
  | [], i, p, h => by simp [Obj.namedAll] at h
  | e :: es, i, p, h => by
    simp only [Obj.namedAll, List.mem_append] at h
    simp only [Obj.countAll]
    rcases h with h | h
    · have := Obj.named_count e i p h; omega
    · have := Obj.namedAll_count es i p h; omega
end

theorem CutObj.lines_good {ι : Name → Option (Thing L)} {s0 s : Store L} {d : Lines L} {ρ : Nat → Nat} (c : CutObj)
    (hι : ∀ n x, (n, x) ∈ c.named → ι n = some x) (hb : ∀ n m, (n, Thing.marker m) ∈ (c.named : List (Name × Thing L)) → m.ByName)
    (g : Good ι s0 d s ρ) : ∃ s' ρ', Good ι s0 (c.lines d) s' ρ' := by
  cases c with
  | marks ts => exact ⟨s, ρ, g⟩
  | marker i m =>
    have h1 := hι (.mrk i) (.marker m) (by simp [CutObj.named])
    have h2 := hb (.mrk i) m (by simp [CutObj.named])
    simp only [CutObj.lines]
    split
    · exact ⟨s, ρ, g⟩
    · split
      · exact ⟨s, ρ, g⟩
      · rename_i h3
        refine ⟨_, ρ, g.add (by simpa using h3) (by simp) h1 ?_ (by simp)⟩
        simp [Expr.eval, MarkerObj.eval_code h2, Thing.value]

theorem rpLines_good {ι : Name → Option (Thing L)} {s0 s : Store L} {d : Lines L} {ρ : Nat → Nat} {i : Nat} {ls : List L}
    (hι : ι (.rp i) = some (.obj (.rp i ls))) (g : Good ι s0 d s ρ) : ∃ s' ρ', Good ι s0 (rpLines i ls d) s' ρ' := by
  unfold rpLines
  split
  · exact ⟨s, ρ, g⟩
  · rename_i h; exact g.addRP (by simpa using h) hι

theorem CutObj.arg_eval {ι : Name → Option (Thing L)} {s0 s : Store L} {d d' : Lines L} {ρ : Nat → Nat} (c : CutObj)
    (hι : ∀ n x, (n, x) ∈ c.named → ι n = some x)
    (hk : ∀ n, (c.lines d').has n → d.has n)
    (g : Good ι s0 d s ρ) : c.arg.eval s = some c.cut := by
  cases c with
  | marks ts => rfl
  | marker i m =>
    have h1 := hι (.mrk i) (.marker m) (by simp [CutObj.named])
    unfold CutObj.arg
    simp only
    split
    · rename_i h
      rcases m with ⟨e, ats, how⟩
      simp only at h
      cases ats with
      | nil => rfl
      | cons _ _ => cases h
    · rename_i h
      have h3 : d.has (.mrk i) := by
        apply hk
        unfold CutObj.lines
        simp only [h]
        split
        · rename_i h4; cases h4
        · split
          · assumption
          · rw [Dict.has_set]; simp
      obtain ⟨x, hx, hv⟩ := g.vars _ h3
      rw [h1] at hx; cases hx
      unfold CutArg.eval
      simp only [hv, Thing.value, CutObj.cut]

theorem Obj.arg_eval {ι : Name → Option (Thing L)} {s0 s : Store L} {d : Lines L} {ρ : Nat → Nat} (o : Obj L)
    (hι : ∀ n x, (n, x) ∈ o.named → ι n = some x) (hk : ∀ n, o.arg = .name n → d.has n)
    (g : Good ι s0 d s ρ) : o.arg.eval s = some (o.layout.rename ρ) := by
  have key : ∀ n, o.arg = .name n → (n, Thing.obj o) ∈ o.named → o.arg.eval s = some (o.layout.rename ρ) := by
    intro n hn hm
    obtain ⟨x, hx, hv⟩ := g.vars n (hk n hn)
    rw [hι n _ hm] at hx; cases hx
    rw [hn]
    unfold ElemArg.eval
    simp only [hv, Thing.value]
  cases o with
  | organizer i c es => exact key (.org i) rfl (by simp [Obj.named])
  | organizerRP i c r ls => exact key (.org i) rfl (by simp [Obj.named])
  | rp i ls => exact key (.rp i) rfl (by simp [Obj.named])
  | list xs => rfl
  | label l => rfl

theorem Obj.args_eval {ι : Name → Option (Thing L)} {s0 s : Store L} {d : Lines L} {ρ : Nat → Nat} (g : Good ι s0 d s ρ) :
    ∀ es : List (Obj L), (∀ n x, (n, x) ∈ Obj.namedAll es → ι n = some x) →
    (∀ e ∈ es, ∀ n, e.arg = .name n → d.has n) →
    ElemArg.evalAll s (es.map Obj.arg) = some (Layout.renameAll ρ (Obj.layouts es))
  | [], _, _ => rfl
  | e :: es, hι, hk => by
    have h1 := Obj.arg_eval e (fun n x h => hι n x (by simp [Obj.namedAll, h])) (hk e (by simp)) g
    have h2 := Obj.args_eval g es (fun n x h => hι n x (by simp [Obj.namedAll, h])) (fun a ha => hk a (by simp [ha]))
    simp only [List.map_cons, ElemArg.evalAll, h1, h2, Obj.layouts, Layout.renameAll]

/-- What is true after the lines of an object. -/
structure Done (ι : Name → Option (Thing L)) (s0 : Store L) (o : Obj L) (d : Lines L) : Prop where
  name : ∀ n, o.arg = .name n → d.has n
  rps : ∀ i ls, o.HasRP i ls → d.has (.rp i)

theorem Done.keep {ι : Name → Option (Thing L)} {s0 : Store L} {o : Obj L} {d d' : Lines L} (h : Done ι s0 o d)
    (hd : ∀ n, d.has n → d'.has n) : Done ι s0 o d' :=
  ⟨fun n hn => hd _ (h.name n hn), fun i ls hi => hd _ (h.rps i ls hi)⟩

mutual
theorem Obj.lines_good {ι : Name → Option (Thing L)} {s0 : Store L} : ∀ (o : Obj L) (d : Lines L) (s : Store L) (ρ : Nat → Nat),
    (∀ n x, (n, x) ∈ o.named → ι n = some x) → o.ByName → Good ι s0 d s ρ →
    ∃ s' ρ', Good ι s0 (o.lines d) s' ρ' ∧ Done ι s0 o (o.lines d)
  | .organizer i c es, d, s, ρ, hι, hb, g => by
    have hself : ι (.org i) = some (.obj (.organizer i c es)) := hι _ _ (by simp [Obj.named])
    have hιc : ∀ n x, (n, x) ∈ c.named → ι n = some x := fun n x h => hι n x (by simp [Obj.named, h])
    have hιe : ∀ n x, (n, x) ∈ Obj.namedAll es → ι n = some x := fun n x h => hι n x (by simp [Obj.named, h])
    have hbc : ∀ n m, (n, Thing.marker m) ∈ (c.named : List (Name × Thing L)) → m.ByName :=
      fun n m h => hb n m (by simp [Obj.named, h])
    have hbe : ∀ n m, (n, Thing.marker m) ∈ Obj.namedAll es → m.ByName := fun n m h => hb n m (by simp [Obj.named, h])
    simp only [Obj.lines]
    split
    · rename_i h
      refine ⟨s, ρ, g, ?_, ?_⟩
      · intro n hn; cases hn; exact h
      · intro k ls hk; exact g.closed _ _ h hself k ls hk
    · rename_i h
      obtain ⟨s1, ρ1, g1⟩ := c.lines_good hιc hbc g
      obtain ⟨s2, ρ2, g2, hd⟩ := Obj.linesAll_good es _ s1 ρ1 hιe hbe g1
      have hno : (Obj.linesAll es (c.lines d)).has (.org i) = false := by
        rw [Bool.eq_false_iff]
        intro hh
        rcases Obj.linesAll_only es _ _ hh with hh | ⟨x, hx⟩
        · rcases c.lines_only d _ hh with hh | ⟨x, hx⟩
          · exact h hh
          · exact CutObj.named_org c i x hx
        · have := hιe _ _ hx
          rw [hself] at this; cases this
          have := Obj.namedAll_count es i _ hx
          simp only [Obj.count] at this; omega
      have hc := c.arg_eval hιc (fun n hn => Obj.linesAll_keep es _ n hn) g2
      have he := Obj.args_eval g2 es hιe (fun e he => (hd e he).name)
      have hr : ∀ k ls, (Obj.organizer i c es).HasRP k ls → (Obj.linesAll es (c.lines d)).has (.rp k) := by
        intro k ls hk
        simp only [Obj.HasRP, Obj.named, List.mem_cons, List.mem_append, Prod.mk.injEq, CutObj.named_rp, false_or,
          reduceCtorEq, false_and] at hk
        exact Obj.namedAll_rp es _ hd k ls hk
      refine ⟨_, ρ2, g2.add hno (by simp) hself (e := .organizer c.arg (es.map Obj.arg)) ?_ ?_, ?_, ?_⟩
      · simp only [Expr.eval, hc, he, Thing.value, Obj.layout, Layout.rename]
      · intro o ho; cases ho; exact hr
      · intro n hn; cases hn; rw [Dict.has_set]; simp
      · intro k ls hk; rw [Dict.has_set, hr k ls hk]; simp
  | .organizerRP i c r ls, d, s, ρ, hι, hb, g => by
    have hself : ι (.org i) = some (.obj (.organizerRP i c r ls)) := hι _ _ (by simp [Obj.named])
    have hιc : ∀ n x, (n, x) ∈ c.named → ι n = some x := fun n x h => hι n x (by simp [Obj.named, h])
    have hιr : ι (.rp r) = some (.obj (.rp r ls)) := hι _ _ (by simp [Obj.named])
    have hbc : ∀ n m, (n, Thing.marker m) ∈ (c.named : List (Name × Thing L)) → m.ByName :=
      fun n m h => hb n m (by simp [Obj.named, h])
    simp only [Obj.lines]
    split
    · rename_i h
      refine ⟨s, ρ, g, ?_, ?_⟩
      · intro n hn; cases hn; exact h
      · intro k ls hk; exact g.closed _ _ h hself k ls hk
    · rename_i h
      obtain ⟨s1, ρ1, g1⟩ := c.lines_good hιc hbc g
      obtain ⟨s2, ρ2, g2⟩ := rpLines_good hιr g1
      have hno : (rpLines r ls (c.lines d)).has (.org i) = false := by
        rw [Bool.eq_false_iff]
        intro hh
        rcases rpLines_only r ls _ _ hh with hh | hx
        · rcases c.lines_only d _ hh with hh | ⟨x, hx⟩
          · exact h hh
          · exact CutObj.named_org c i x hx
        · cases hx
      have hc := c.arg_eval hιc (fun n hn => rpLines_keep r ls _ n hn) g2
      have hhas := rpLines_has r ls (c.lines d)
      obtain ⟨x, hx, hv⟩ := g2.vars _ hhas
      rw [hιr] at hx; cases hx
      have hr : ∀ k ls', (Obj.organizerRP i c r ls).HasRP k ls' → (rpLines r ls (c.lines d)).has (.rp k) := by
        intro k ls' hk
        simp only [Obj.HasRP, Obj.named, List.mem_cons, List.mem_append, Prod.mk.injEq, CutObj.named_rp, false_or,
          reduceCtorEq, false_and, List.not_mem_nil, or_false, Name.rp.injEq] at hk
        rw [hk.1]; exact hhas
      refine ⟨_, ρ2, g2.add hno (by simp) hself (e := .organizerRP c.arg (.rp r)) ?_ ?_, ?_, ?_⟩
      · simp only [Expr.eval, hc, hv, Thing.value, Obj.layout, Layout.rename, Pattern.rename]
      · intro o ho; cases ho; exact hr
      · intro n hn; cases hn; rw [Dict.has_set]; simp
      · intro k ls hk; rw [Dict.has_set, hr k ls hk]; simp
  | .rp i ls, d, s, ρ, hι, _, g => by
    obtain ⟨s2, ρ2, g2⟩ := rpLines_good (hι (.rp i) (.obj (.rp i ls)) (by simp [Obj.named])) g
    simp only [Obj.lines]
    refine ⟨s2, ρ2, g2, ?_, ?_⟩
    · intro n hn; cases hn; exact rpLines_has i ls d
    · intro k ls' hk
      simp only [Obj.HasRP, Obj.named, List.mem_singleton, Prod.mk.injEq, Name.rp.injEq] at hk
      rw [hk.1]; exact rpLines_has i ls d
  | .list _, d, s, ρ, _, _, g => by
    simp only [Obj.lines]
    refine ⟨s, ρ, g, ?_, ?_⟩
    · intro n hn; cases hn
    · intro k ls' hk; simp [Obj.HasRP, Obj.named] at hk
  | .label _, d, s, ρ, _, _, g => by
    simp only [Obj.lines]
    refine ⟨s, ρ, g, ?_, ?_⟩
    · intro n hn; cases hn
    · intro k ls' hk; simp [Obj.HasRP, Obj.named] at hk

theorem Obj.linesAll_good {ι : Name → Option (Thing L)} {s0 : Store L} : ∀ (es : List (Obj L)) (d : Lines L) (s : Store L)
    (ρ : Nat → Nat), (∀ n x, (n, x) ∈ Obj.namedAll es → ι n = some x) →
    (∀ n m, (n, Thing.marker m) ∈ Obj.namedAll es → m.ByName) → Good ι s0 d s ρ →
    ∃ s' ρ', Good ι s0 (Obj.linesAll es d) s' ρ' ∧ ∀ e ∈ es, Done ι s0 e (Obj.linesAll es d)
  | [], d, s, ρ, _, _, g => ⟨s, ρ, by simpa only [Obj.linesAll] using g, by simp⟩
  | e :: es, d, s, ρ, hι, hb, g => by
    obtain ⟨s1, ρ1, g1, d1⟩ := Obj.lines_good e d s ρ (fun n x h => hι n x (by simp [Obj.namedAll, h]))
      (fun n m h => hb n m (by simp [Obj.namedAll, h])) g
    obtain ⟨s2, ρ2, g2, d2⟩ := Obj.linesAll_good es _ s1 ρ1 (fun n x h => hι n x (by simp [Obj.namedAll, h]))
      (fun n m h => hb n m (by simp [Obj.namedAll, h])) g1
    simp only [Obj.linesAll]
    refine ⟨s2, ρ2, g2, ?_⟩
    intro a ha
    rcases List.mem_cons.1 ha with rfl | ha
    · exact d1.keep (Obj.linesAll_keep es _)
    · exact d2 a ha

theorem Obj.namedAll_rp {ι : Name → Option (Thing L)} {s0 : Store L} : ∀ (es : List (Obj L)) (d : Lines L),
    (∀ e ∈ es, Done ι s0 e d) → ∀ k ls, (Name.rp k, Thing.obj (Obj.rp k ls)) ∈ Obj.namedAll es → d.has (.rp k)
  | [], d, _, k, ls, h => by simp [Obj.namedAll] at h
  | e :: es, d, hd, k, ls, h => by
    simp only [Obj.namedAll, List.mem_append] at h
    rcases h with h | h
    · exact (hd e (by simp)).rps k ls h
    · exact Obj.namedAll_rp es d (fun a ha => hd a (by simp [ha])) k ls h
end

/-- The states of organizing agree, identities of RememberingPatterns having been changed. -/
structure SameUpTo (P : Nat → Prop) (ρ : Nat → Nat) (st st' : TLState L) : Prop where
  labels : st'.labels = st.labels
  mask : st'.mask = st.mask
  heap : ∀ i, P i → st'.heap (ρ i) = st.heap i

/-- Both fail in the same way or both succeed with agreeing states. -/
inductive SameResult (P : Nat → Prop) (ρ : Nat → Nat) : Except Err (TLState L) → Except Err (TLState L) → Prop
  | error (e : Err) : SameResult P ρ (.error e) (.error e)
  | ok {st st' : TLState L} : SameUpTo P ρ st st' → SameResult P ρ (.ok st) (.ok st')

/-- The heaps agree. -/
def SameHeap (P : Nat → Prop) (ρ : Nat → Nat) (h h' : Heap L) : Prop := ∀ i, P i → h' (ρ i) = h i

theorem SameHeap.set {P : Nat → Prop} {ρ : Nat → Nat} (hinj : ∀ i j, P i → P j → ρ i = ρ j → i = j) {h h' : Heap L}
    (hh : SameHeap P ρ h h') {i : Nat} (hi : P i) (c : Cycle L) : SameHeap P ρ (h.set i c) (h'.set (ρ i) c) := by
  intro j hj
  unfold Heap.set
  by_cases hji : j = i
  · simp [hji]
  · rw [if_neg (fun he => hji (hinj j i hj hi he)), if_neg hji]; exact hh j hj

/-- Change of identities in an iterator. -/
def Src.rename (ρ : Nat → Nat) : Src L → Src L
  | .fresh c => .fresh c
  | .shared i => .shared (ρ i)

/-- The iterator is on a known pattern. -/
def Src.Within (P : Nat → Prop) : Src L → Prop
  | .fresh _ => True
  | .shared i => P i

theorem Src.next_rename {P : Nat → Prop} {ρ : Nat → Nat} (hinj : ∀ i j, P i → P j → ρ i = ρ j → i = j) {h h' : Heap L}
    (hh : SameHeap P ρ h h') (s : Src L) (hs : s.Within P) :
    (s.next h = none ∧ (s.rename ρ).next h' = none) ∨
    ∃ x s1 h1 h1', s.next h = some (x, s1, h1) ∧ (s.rename ρ).next h' = some (x, s1.rename ρ, h1') ∧ SameHeap P ρ h1 h1' ∧
      s1.Within P := by
  cases s with
  | fresh c =>
    simp only [Src.rename, Src.next]
    cases c.next with
    | none => exact .inl ⟨rfl, rfl⟩
    | some y => exact .inr ⟨y.1, .fresh y.2, h, h', rfl, rfl, hh, trivial⟩
  | shared i =>
    simp only [Src.rename, Src.next]
    rw [hh i hs]
    cases (h i).next with
    | none => exact .inl ⟨rfl, rfl⟩
    | some y => exact .inr ⟨y.1, .shared i, _, _, rfl, rfl, hh.set hinj hs y.2, hs⟩

theorem Src.take_rename {P : Nat → Prop} {ρ : Nat → Nat} (hinj : ∀ i j, P i → P j → ρ i = ρ j → i = j) :
    ∀ (n : Nat) (s : Src L) (h h' : Heap L), SameHeap P ρ h h' → s.Within P →
    (Src.take n s h = none ∧ Src.take n (s.rename ρ) h' = none) ∨
    ∃ xs s1 h1 h1', Src.take n s h = some (xs, s1, h1) ∧ Src.take n (s.rename ρ) h' = some (xs, s1.rename ρ, h1') ∧
      SameHeap P ρ h1 h1' ∧ s1.Within P
  | 0, s, h, h', hh, hs => .inr ⟨[], s, h, h', rfl, rfl, hh, hs⟩
  | n + 1, s, h, h', hh, hs => by
    simp only [Src.take]
    rcases Src.next_rename hinj hh s hs with ⟨e1, e2⟩ | ⟨x, s1, h1, h1', e1, e2, hh1, hs1⟩
    · rw [e1, e2]; exact .inl ⟨rfl, rfl⟩
    · rw [e1, e2]
      simp only
      rcases Src.take_rename hinj n s1 h1 h1' hh1 hs1 with ⟨e1, e2⟩ | ⟨xs, s2, h2, h2', e1, e2, hh2, hs2⟩
      · rw [e1, e2]; exact .inl ⟨rfl, rfl⟩
      · rw [e1, e2]; exact .inr ⟨x :: xs, s2, h2, h2', rfl, rfl, hh2, hs2⟩

theorem applyPattern_rename {P : Nat → Prop} {ρ : Nat → Nat} (hinj : ∀ i j, P i → P j → ρ i = ρ j → i = j)
    (p : Pattern L) (hp : p.src.Within P) (s : Span) {st st' : TLState L} (h : SameUpTo P ρ st st') :
    SameResult P ρ (applyPattern p s st) (applyPattern (p.rename ρ) s st') := by
  have hsrc : (p.rename ρ).src = p.src.rename ρ := by cases p <;> rfl
  unfold applyPattern
  split
  · exact .error _
  · unfold skiperatorTake
    rw [hsrc]
    rcases Src.take_rename hinj s.skipLeft.toNat p.src st.heap st'.heap h.heap hp with ⟨e1, e2⟩ | ⟨xs, s1, h1, h1', e1, e2, hh1, hs1⟩
    · rw [e1, e2]; exact .ok h
    · rw [e1, e2]
      simp only
      rcases Src.take_rename hinj (s.last + 1 - s.first).toNat s1 h1 h1' hh1 hs1 with ⟨e1, e2⟩ | ⟨xs, s2, h2, h2', e1, e2, hh2, hs2⟩
      · rw [e1, e2]; exact .ok h
      · rw [e1, e2]
        refine .ok ⟨?_, h.mask, hh2⟩
        simp only [h.labels]

theorem zipRunRP_rename {P : Nat → Prop} {ρ : Nat → Nat} (hinj : ∀ i j, P i → P j → ρ i = ρ j → i = j) {i : Nat} (hi : P i) :
    ∀ (ss : List Span) {st st' : TLState L}, SameUpTo P ρ st st' → SameResult P ρ (zipRunRP ss i st) (zipRunRP ss (ρ i) st')
  | [], _, _, h => .ok h
  | s :: ss, st, st', h => by
    simp only [zipRunRP]
    rw [h.heap i hi]
    cases (st.heap i).next with
    | none => exact .ok h
    | some y =>
      simp only [makeCompound]
      refine zipRunRP_rename hinj hi ss ⟨?_, ?_, ?_⟩
      · simp only [h.labels]
      · simp only [h.mask]
      · exact SameHeap.set hinj h.heap hi y.2

/-- Lists related element by element. -/
inductive Elementwise {α β : Type} (R : α → β → Prop) : List α → List β → Prop
  | nil : Elementwise R [] []
  | cons {a : α} {b : β} {as : List α} {bs : List β} : R a b → Elementwise R as bs → Elementwise R (a :: as) (b :: bs)

/-- Corresponding effects. -/
def SameStep (P : Nat → Prop) (ρ : Nat → Nat) (a b : Step L) : Prop :=
  ∀ s st st', SameUpTo P ρ st st' → SameResult P ρ (a s st) (b s st')

theorem zipRun_rename {P : Nat → Prop} {ρ : Nat → Nat} :
    ∀ (ss : List Span) {c c' : Cycle (Step L)} {st st' : TLState L}, Elementwise (SameStep P ρ) c.saved c'.saved →
    Elementwise (SameStep P ρ) c.rest c'.rest → SameUpTo P ρ st st' → SameResult P ρ (zipRun ss c st) (zipRun ss c' st')
  | [], _, _, _, _, _, _, h => .ok h
  | s :: ss, c, c', st, st', h1, h2, h => by
    have key : ∀ (a b : Step L) (r r' : List (Step L)), SameStep P ρ a b → Elementwise (SameStep P ρ) r r' →
        SameResult P ρ (match a s st with | .error e => .error e | .ok st' => zipRun ss { c with rest := r } st')
          (match b s st' with | .error e => .error e | .ok st' => zipRun ss { c' with rest := r' } st') := by
      intro a b r r' hab hr
      have := hab s st st' h
      generalize a s st = u at this
      generalize b s st' = v at this
      cases this with
      | error e => exact .error e
      | ok hh => exact zipRun_rename ss h1 hr hh
    rcases c with ⟨sv, rs⟩
    rcases c' with ⟨sv', rs'⟩
    simp only at h1 h2
    cases h2 with
    | cons ha hr => exact key _ _ _ _ ha hr
    | nil =>
      simp only [zipRun, Cycle.next]
      cases h1 with
      | nil => exact .ok h
      | cons ha hr => exact key _ _ _ _ ha hr

mutual
theorem Layout.run_rename (f : Frame) {P : Nat → Prop} {ρ : Nat → Nat} (hinj : ∀ i j, P i → P j → ρ i = ρ j → i = j) :
    ∀ (l : Layout L), (∀ i ∈ l.rps, P i) → SameStep P ρ (Layout.run f l) (Layout.run f (l.rename ρ))
  | .organizer c es, hl => by
    intro s st st' h
    simp only [Layout.run, Layout.rename]
    cases f.cutSpan c s with
    | error e => exact .error e
    | ok spans =>
      have := Layout.runAll_rename f hinj es (by simpa only [Layout.rps] using hl)
      exact zipRun_rename spans this this h
  | .organizerRP c i, hl => by
    intro s st st' h
    simp only [Layout.run, Layout.rename]
    cases f.cutSpan c s with
    | error e => exact .error e
    | ok spans => exact zipRunRP_rename hinj (hl i (by simp [Layout.rps])) spans h
  | .pattern (.rp i), hl => by
    intro s st st' h
    simp only [Layout.run, Layout.rename]
    exact applyPattern_rename hinj (.rp i) (hl i (by simp [Layout.rps])) s h
  | .pattern (.list xs), _ => by
    intro s st st' h
    simp only [Layout.run, Layout.rename]
    exact applyPattern_rename hinj (.list xs) trivial s h
  | .label l, _ => by
    intro s st st' h
    simp only [Layout.run, Layout.rename, makeCompound]
    exact .ok ⟨by simp only [h.labels], by simp only [h.mask], h.heap⟩

theorem Layout.runAll_rename (f : Frame) {P : Nat → Prop} {ρ : Nat → Nat} (hinj : ∀ i j, P i → P j → ρ i = ρ j → i = j) :
    ∀ (ls : List (Layout L)), (∀ i ∈ Layout.rpsAll ls, P i) →
    Elementwise (SameStep P ρ) (Layout.runAll f ls) (Layout.runAll f (Layout.renameAll ρ ls))
  | [], _ => by simp only [Layout.runAll, Layout.renameAll]; exact .nil
  | l :: ls, hl => by
    simp only [Layout.runAll, Layout.renameAll]
    exact .cons (Layout.run_rename f hinj l (fun i hi => hl i (by simp [Layout.rpsAll, hi])))
      (Layout.runAll_rename f hinj ls (fun i hi => hl i (by simp [Layout.rpsAll, hi])))
end

theorem Timeline.new_rename {P : Nat → Prop} {ρ : Nat → Nat} (hinj : ∀ i j, P i → P j → ρ i = ρ j → i = j) (f : Frame)
    (l : Layout L) (hl : ∀ i ∈ l.rps, P i) (re : Bool) (dl : L) {h h' : Heap L} (hh : SameHeap P ρ h h') :
    (Timeline.new f (some l) re dl h).map Prod.fst = (Timeline.new f (some (l.rename ρ)) re dl h').map Prod.fst := by
  have := Layout.run_rename f hinj l hl { first := 0, last := (f.n : Int) - 1 }
    { labels := fun _ => dl, mask := fun _ => true, heap := h } { labels := fun _ => dl, mask := fun _ => true, heap := h' }
    ⟨rfl, rfl, hh⟩
  simp only [Timeline.new]
  generalize Layout.run f l _ _ = u at this
  generalize Layout.run f (l.rename ρ) _ _ = v at this
  cases this with
  | error e => rfl
  | ok h => simp only [Except.map, h.labels, h.mask]

theorem Layout.makeOrganizer_rename (ρ : Nat → Nat) (l : Layout L) :
    makeOrganizer (l.rename ρ) = (makeOrganizer l).map (Layout.rename ρ) := by
  cases l with
  | organizer c es => rfl
  | organizerRP c i => rfl
  | pattern p => cases p <;> rfl
  | label l => rfl

theorem Layout.makeOrganizer_rps {l o : Layout L} (h : makeOrganizer l = .ok o) : o.rps = l.rps := by
  cases l with
  | organizer c es => cases h; rfl
  | organizerRP c i => cases h; rfl
  | pattern p => cases p <;> cases h; simp [Layout.rps, Layout.rpsAll]
  | label l => cases h

/-- The identities of RememberingPatterns do not matter. -/
theorem Timeboard.new_rename {P : Nat → Prop} {ρ : Nat → Nat} (hinj : ∀ i j, P i → P j → ρ i = ρ j → i = j)
    (a : Args L) (hl : ∀ i ∈ a.layout.rps, P i) {h h' : Heap L} (hh : SameHeap P ρ h h') :
    (Timeboard.new a h).map Prod.fst = (Timeboard.new { a with layout := a.layout.rename ρ } h').map Prod.fst := by
  unfold Timeboard.new
  simp only [Layout.makeOrganizer_rename]
  cases ho : makeOrganizer a.layout with
  | error e => rfl
  | ok org =>
    by_cases hw : a.worktimeSource ∉ ["duration", "labels"]
    · simp only [Except.map, hw, not_false_eq_true, if_true]
    · simp only [Except.map, hw, if_false]
      cases hf : Frame.new a.freq a.start a.stop with
      | error e => rfl
      | ok f =>
        simp only
        have := Timeline.new_rename hinj f org (by rw [Layout.makeOrganizer_rps ho]; exact hl) a.refEnd a.defaultLabel hh
        generalize Timeline.new f (some org) a.refEnd a.defaultLabel h = u at this
        generalize Timeline.new f (some (org.rename ρ)) a.refEnd a.defaultLabel h' = v at this
        cases u with
        | error e => cases v with
          | error e' => simpa [Except.map] using this
          | ok _ => simp [Except.map] at this
        | ok x => cases v with
          | error e' => simp [Except.map] at this
          | ok y =>
            rcases x with ⟨x, hx⟩
            rcases y with ⟨y, hy⟩
            simp only [Except.map, Except.ok.injEq] at this
            subst this
            simp only
            cases x.amend a.amendments <;> rfl

end TB
