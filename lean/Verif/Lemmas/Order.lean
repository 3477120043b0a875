import Verif.Spec.Order
import Verif.Lemmas.Superfluous
/-! The order of divisions: lemmas. -/
namespace TB
variable {L : Type}

/-- The span alone. -/
def Span.bare (s : Span) : Span := { s with skipLeft := 0, skipRight := 0 }

theorem foldlM_bare {f : Frame} {l : Layout L} (hl : ∀ p, l ≠ .pattern p) : ∀ (ss : List Span) (_ : ∀ s ∈ ss, s.Within f.n) (st : TLState L),
    ss.foldlM (fun st s => Layout.run f l s st) st = (ss.map Span.bare).foldlM (fun st s => Layout.run f l s st) st
  | [], _, _ => rfl
  | s :: ss, h, st => by
    rw [List.map_cons, List.foldlM_cons, List.foldlM_cons]
    have e : Layout.run f l s.bare st = Layout.run f l s st := Layout.run_skips f (h s (List.mem_cons_self ..)) 0 0 (.inl hl) st
    rw [e]
    cases Layout.run f l s st with
    | error e => rfl
    | ok st' => exact foldlM_bare hl ss (fun x hx => h x (List.mem_cons_of_mem _ hx)) st'

/-- Whether a part begins with a base unit does not depend on the span. -/
def Cut.Pointwise (f : Frame) (c : Cut) (P : Int → Prop) : Prop :=
  ∀ s : Span, s.Within f.n → ∃ ss, f.cutSpan c s = .ok ss ∧ Tiles s.first s.last ss ∧ (∀ x ∈ ss, x.Within f.n) ∧
    ∀ i, s.first < i → i ≤ s.last → ((∃ x ∈ ss, x.first = i) ↔ P i)

theorem Cut.Plain.begins {f : Frame} {c : Cut} (h : c.Plain f.freq) (ha : c.Accepted f.freq) : c.Pointwise f (c.Begins f) := by
  cases h with
  | marks ts =>
    refine fun s hs => ⟨f.divide s ts, ?_, Frame.divide_tiles hs ts, (Frame.cut_within (c := .marks ts) hs rfl).2, fun i h1 h2 => Frame.divide_starts hs ts i h1 h2⟩
    rw [Frame.cutSpan_eq _ hs.1 hs.2.1 hs.2.2]; rfl
  | @periods q hq =>
    have hc : checkGroupbyFreq f.freq q = true := ha
    refine fun x hx => ?_
    obtain ⟨xs, e2, t2, k2⟩ := C05_calendar_spans f x q hc hx.1 hx.2.1 hx.2.2
    have hcut' : f.cut x (.marker ⟨q, []⟩) = .ok xs := by rw [← Frame.cutSpan_eq _ hx.1 hx.2.1 hx.2.2]; exact e2
    refine ⟨xs, e2, t2, (Frame.cut_within hx hcut').2, fun i h1 h2 => ?_⟩
    rw [k2 i h1 h2]
    constructor
    · rintro ⟨p, hp, _, a1, a2⟩
      have ep : p.startTime = q.base.startOf p.ord := by rw [← hp]; rfl
      have := Frame.unit_unsplit hc hq i p.ord
      exact .inl ⟨rfl, p.ord, by show f.unitStart i = q.base.startOf p.ord; omega⟩
    · intro hb
      obtain ⟨o, ho⟩ : ∃ o, f.unitStart i = q.base.startOf o := by
        rcases hb with hb | hb
        · exact hb.2
        · obtain ⟨_, _, hg, _⟩ := hb
          cases hg
      have ho : f.unitStart i = q.base.startOf o := ho
      refine ⟨⟨q, o⟩, rfl, by rw [hq]; exact ⟨_, (Int.one_mul _).symm⟩, ?_, ?_⟩
      · show _ ≤ q.base.startOf o
        rw [ho]; exact Int.le_refl _
      · show q.base.startOf o ≤ _
        rw [← ho]; exact Frame.unitStart_le_unitEnd' (Int.le_refl _)
  | @regular m hr =>
    intro x hx
    have hc : checkGroupbyFreq f.freq m.each = true := ha
    obtain ⟨xs, _, e2, t2, k2, _⟩ := Frame.partition_regular hr hc hx.1 hx.2.1 hx.2.2
    have hcut' : f.cut x (.marker m) = .ok xs := by rw [← Frame.cutSpan_eq _ hx.1 hx.2.1 hx.2.2]; exact e2
    refine ⟨xs, e2, t2, (Frame.cut_within hx hcut').2, fun i h1 h2 => ?_⟩
    rw [k2 i h1 h2]
    exact ⟨.inr, fun h => h.resolve_left (fun h => hr.ne h.1)⟩

theorem Cut.Accepted.refused {f : Frame} {m : Marker} (ha : ¬ (Cut.marker m).Accepted f.freq) (s : Span) : f.cutSpan (.marker m) s = .error .unacceptablePeriod := by
  have hc : checkGroupbyFreq f.freq m.each = false := by
    cases e : checkGroupbyFreq f.freq m.each with
    | true => exact absurd e ha
    | false => rfl
  show f.partitionWithMarker s m = _
  unfold Frame.partitionWithMarker
  rw [hc]
  rfl

theorem Cut.Plain.pointwise {f : Frame} {c : Cut} (h : c.Plain f.freq) : (∃ P, c.Pointwise f P) ∨ ∀ s, f.cutSpan c s = .error .unacceptablePeriod := by
  by_cases ha : c.Accepted f.freq
  · exact .inl ⟨_, h.begins ha⟩
  · cases h with
    | marks ts => exact absurd trivial ha
    | @periods q hq => exact .inr (Cut.Accepted.refused ha)
    | @regular m hr => exact .inr (Cut.Accepted.refused ha)

/-- What two divisions, one inside the other, amount to. -/
theorem Layout.run_pointwise {f : Frame} {c c' : Cut} {P P' : Int → Prop} (h : c.Pointwise f P) (h' : c'.Pointwise f P') {s : Span} (hs : s.Within f.n) :
    ∃ ss, Tiles s.first s.last ss ∧ (∀ x ∈ ss, x.Within f.n) ∧ (∀ i, s.first < i → i ≤ s.last → ((∃ x ∈ ss, x.first = i) ↔ (P i ∨ P' i))) ∧
      ∀ (l : Layout L) (st : TLState L), Layout.run f (.organizer c [.organizer c' [l]]) s st = ss.foldlM (fun st s => Layout.run f l s st) st := by
  obtain ⟨ss, e, t, hin, k⟩ := h s hs
  have hxs : ∃ xs : Span → List Span, ∀ x, x.Within f.n → f.cutSpan c' x = .ok (xs x) :=
    ⟨fun x => (match f.cutSpan c' x with | .ok l => l | .error _ => []), fun x hx => by
      obtain ⟨xs, e, _⟩ := h' x hx
      simp only [e]⟩
  obtain ⟨xs, hxs⟩ := hxs
  have hx : ∀ x ∈ ss, Tiles x.first x.last (xs x) ∧ (∀ y ∈ xs x, y.Within f.n) ∧ ∀ i, x.first < i → i ≤ x.last → ((∃ y ∈ xs x, y.first = i) ↔ P' i) := by
    intro x hx
    obtain ⟨l, e, h⟩ := h' x (hin x hx)
    rw [hxs x (hin x hx)] at e
    cases e
    exact h
  refine ⟨ss.flatMap xs, t.flatMap (fun x h => (hx x h).1), ?_, ?_, ?_⟩
  · intro y hy
    obtain ⟨x, h1, h2⟩ := List.mem_flatMap.1 hy
    exact (hx x h1).2.1 y h2
  · refine t.flatMap_starts (fun x h => (hx x h).1) (fun x h h1 => .inl ?_) (fun x h i h1 h2 => ?_)
    · have := t.mem h
      exact (k x.first h1 (by omega)).1 ⟨x, h, rfl⟩
    · have m := t.mem h
      rw [(hx x h).2.2 i h1 h2]
      constructor
      · exact .inr
      · rintro (hp | hp)
        · obtain ⟨y, hy, ey⟩ := (k i (by omega) (by omega)).2 hp
          exact absurd ⟨by omega, by omega⟩ (t.starts_apart h hy)
        · exact hp
  · intro l st
    have e1 : Layout.run f (.organizer c [.organizer c' [l]]) s st = ss.foldlM (fun st s => Layout.run f (.organizer c' [l]) s st) st := by
      rw [show Layout.run f (.organizer c [.organizer c' [l]]) s st = _ by unfold Layout.run; rw [e]]
      exact zipRun_each ss _ (.inr rfl) st
    have e3 : ∀ x ∈ ss, ∀ st, Layout.run f (.organizer c' [l]) x st = (xs x).foldlM (fun st s => Layout.run f l s st) st := by
      intro x hx st
      rw [show Layout.run f (.organizer c' [l]) x st = _ by unfold Layout.run; rw [hxs x (hin x hx)]]
      exact zipRun_each (xs x) _ (.inr rfl) st
    rw [e1, foldlM_same (q := fun x st => (xs x).foldlM (fun st s => Layout.run f l s st) st) ss e3, ← foldlM_flatMap (Layout.run f l) xs]

theorem Tiles.same_bare {a b : Int} {ss ss' : List Span} (h : Tiles a b ss) (h' : Tiles a b ss')
    (hi : ∀ i, a < i → i ≤ b → ((∃ x ∈ ss, x.first = i) ↔ ∃ x ∈ ss', x.first = i)) : ss.map Span.bare = ss'.map Span.bare := by
  have bareT : ∀ {ss : List Span} {a b : Int}, Tiles a b ss → Tiles a b (ss.map Span.bare) := by
    intro ss
    induction ss with
    | nil => intro a b h; exact h.elim
    | cons s r ih =>
      intro a b h
      cases r with
      | nil => exact h
      | cons x r => exact ⟨h.1, h.2.1, ih h.2.2⟩
  have mem : ∀ {ss : List Span} {i : Int}, (∃ x ∈ ss.map Span.bare, x.first = i) ↔ ∃ x ∈ ss, x.first = i := by
    intro ss i
    constructor
    · rintro ⟨x, hx, e⟩
      obtain ⟨y, hy, rfl⟩ := List.mem_map.1 hx
      exact ⟨y, hy, e⟩
    · rintro ⟨x, hx, e⟩
      exact ⟨x.bare, List.mem_map.2 ⟨x, hx, rfl⟩, e⟩
  have k := Tiles.same (bareT h) (bareT h') (fun i h1 h2 => by rw [mem, mem]; exact hi i h1 h2) (fun x hx y hy _ => by
    obtain ⟨_, _, rfl⟩ := List.mem_map.1 hx
    obtain ⟨_, _, rfl⟩ := List.mem_map.1 hy
    rfl)
  have e : ∀ ss : List Span, (ss.map Span.bare).map Span.noRight = ss.map Span.bare := by
    intro ss
    rw [List.map_map]
    rfl
  rw [e, e] at k
  exact k

theorem Layout.run_refused {f : Frame} {c : Cut} (h : ∀ s, f.cutSpan c s = .error .unacceptablePeriod) (es : List (Layout L)) (s : Span) (st : TLState L) :
    Layout.run f (.organizer c es) s st = .error .unacceptablePeriod := by
  rw [show Layout.run f (.organizer c es) s st = _ by unfold Layout.run; rw [h s]]

theorem Layout.run_refused_inside {f : Frame} {c c' : Cut} (hc : c.Plain f.freq) (h : ∀ s, f.cutSpan c' s = .error .unacceptablePeriod) (es : List (Layout L))
    {s : Span} (hs : s.Within f.n) (st : TLState L) : Layout.run f (.organizer c [.organizer c' es]) s st = .error .unacceptablePeriod := by
  rcases hc.pointwise (f := f) with ⟨P, hP⟩ | hbad
  · obtain ⟨ss, e, t, _⟩ := hP s hs
    rw [show Layout.run f (.organizer c [.organizer c' es]) s st = _ by unfold Layout.run; rw [e]]
    show zipRun ss ⟨[Layout.run f (.organizer c' es)], [Layout.run f (.organizer c' es)]⟩ st = _
    rw [zipRun_each _ _ (.inr rfl)]
    cases ss with
    | nil => exact t.elim
    | cons x r =>
      rw [List.foldlM_cons, Layout.run_refused h]
      rfl
  · exact Layout.run_refused hbad _ s st

/-- Two divisions change places. -/
theorem Layout.run_swap {f : Frame} {c c' : Cut} (hc : c.Plain f.freq) (hc' : c'.Plain f.freq) {l : Layout L} (hl : ∀ p, l ≠ .pattern p) {s : Span} (hs : s.Within f.n)
    (st : TLState L) : Layout.run f (.organizer c [.organizer c' [l]]) s st = Layout.run f (.organizer c' [.organizer c [l]]) s st := by
  rcases hc.pointwise (f := f) with ⟨P, hP⟩ | hbad
  · rcases hc'.pointwise (f := f) with ⟨P', hP'⟩ | hbad'
    · obtain ⟨ss, t, hin, k, e⟩ := Layout.run_pointwise (L := L) hP hP' hs
      obtain ⟨ss', t', hin', k', e'⟩ := Layout.run_pointwise (L := L) hP' hP hs
      rw [e, e', foldlM_bare hl ss hin, foldlM_bare hl ss' hin', t.same_bare t' (fun i h1 h2 => by rw [k i h1 h2, k' i h1 h2]; exact Or.comm)]
    · rw [Layout.run_refused hbad', Layout.run_refused_inside hc hbad' _ hs]
  · rw [Layout.run_refused hbad, Layout.run_refused_inside hc' hbad _ hs]

theorem Layout.run_inside {f : Frame} (c : Cut) {l l' : Layout L} (h : ∀ {s : Span}, s.Within f.n → ∀ st, Layout.run f l s st = Layout.run f l' s st)
    {s : Span} (hs : s.Within f.n) (st : TLState L) : Layout.run f (.organizer c [l]) s st = Layout.run f (.organizer c [l']) s st := by
  unfold Layout.run
  cases hcut : f.cutSpan c s with
  | error e => rfl
  | ok ss =>
    have hcut' : f.cut s c = .ok ss := by rw [← Frame.cutSpan_eq _ hs.1 hs.2.1 hs.2.2]; exact hcut
    have hin := (Frame.cut_within hs hcut').2
    exact zipRun_on (P := fun x => x.Within f.n) ss hin (.cons (fun x hx st => h hx st) .nil) (.cons (fun x hx st => h hx st) .nil) st

theorem Layout.run_nest {f : Frame} {cs cs' : List Cut} (hp : cs.Perm cs') : (∀ c ∈ cs, c.Plain f.freq) → ∀ {l : Layout L}, (∀ p, l ≠ .pattern p) →
    ∀ {s : Span}, s.Within f.n → ∀ st, Layout.run f (l.nest cs) s st = Layout.run f (l.nest cs') s st := by
  induction hp with
  | nil => intros; rfl
  | cons c _ ih => intro h l hl s hs st; exact Layout.run_inside c (fun hs st => ih (fun x hx => h x (List.mem_cons_of_mem _ hx)) hl hs st) hs st
  | swap c c' cs =>
    intro h l hl s hs st
    refine Layout.run_swap (h _ (List.mem_cons_self ..)) (h _ (List.mem_cons_of_mem _ (List.mem_cons_self ..))) ?_ hs st
    intro p
    cases cs with
    | nil => exact hl p
    | cons c cs => intro h; cases h
  | trans h1 _ ih1 ih2 => intro h l hl s hs st; rw [ih1 h hl hs, ih2 (fun x hx => h x (h1.mem_iff.2 hx)) hl hs]

theorem Layout.run_element {f : Frame} (c : Cut) (pre post : List (Layout L)) {l l' : Layout L}
    (h : ∀ {s : Span}, s.Within f.n → ∀ st, Layout.run f l s st = Layout.run f l' s st) {s : Span} (hs : s.Within f.n) (st : TLState L) :
    Layout.run f (.organizer c (pre ++ l :: post)) s st = Layout.run f (.organizer c (pre ++ l' :: post)) s st := by
  unfold Layout.run
  cases hcut : f.cutSpan c s with
  | error e => rfl
  | ok ss =>
    have hcut' : f.cut s c = .ok ss := by rw [← Frame.cutSpan_eq _ hs.1 hs.2.1 hs.2.2]; exact hcut
    have hin := (Frame.cut_within hs hcut').2
    refine zipRun_on (P := fun x => x.Within f.n) ss hin ?_ ?_ st <;>
    · show StepsOn _ (Layout.runAll f _) (Layout.runAll f _)
      rw [Layout.runAll_append, Layout.runAll_append]
      exact (StepsOn.refl _ _).append (.cons (fun x hx st => h hx st) (StepsOn.refl _ _))

theorem Layout.Rewrites.run {f : Frame} {l l' : Layout L} (h : Layout.Rewrites f.freq l l') :
    ∀ {s : Span}, s.Within f.n → ∀ st, Layout.run f l s st = Layout.run f l' s st := by
  induction h with
  | shorter h => exact h.run
  | order hp hc hl => exact Layout.run_nest hp hc hl
  | symm _ ih => intro s hs st; exact (ih hs st).symm
  | trans _ _ ih1 ih2 => intro s hs st; rw [ih1 hs, ih2 hs]
  | element c pre post _ ih => intro s hs st; exact Layout.run_element c pre post ih hs st

theorem Frame.marks_exist (f : Frame) (P : Int → Prop) : ∃ us : List Time, ∀ i : Int, 0 ≤ i → i < f.n → ((∃ t ∈ us, f.fallsIn i t = true) ↔ P i) := by
  classical
  refine ⟨((intRange 0 f.n).filter (fun i => decide (P i))).map f.unitStart, fun i h0 h1 => ?_⟩
  constructor
  · rintro ⟨t, ht, e⟩
    obtain ⟨j, hj, rfl⟩ := List.mem_map.1 ht
    rw [Frame.fallsIn_unit] at e
    have e := of_decide_eq_true e
    subst e
    exact of_decide_eq_true (List.mem_filter.1 hj).2
  · intro hp
    refine ⟨f.unitStart i, List.mem_map.2 ⟨i, List.mem_filter.2 ⟨(mem_intRange _ _ _).2 ⟨h0, h1⟩, decide_eq_true hp⟩, rfl⟩, ?_⟩
    rw [Frame.fallsIn_unit]
    exact decide_eq_true rfl

theorem Layout.run_one {f : Frame} {c : Cut} {s : Span} {ss : List Span} (h : f.cutSpan c s = .ok ss) (l : Layout L) (st : TLState L) :
    Layout.run f (.organizer c [l]) s st = ss.foldlM (fun st s => Layout.run f l s st) st := by
  rw [show Layout.run f (.organizer c [l]) s st = _ by unfold Layout.run; rw [h]]
  exact zipRun_each ss _ (.inr rfl) st

/-- Divisions one inside the other are one division by marks. -/
theorem Layout.run_as_marks {f : Frame} : ∀ (cs : List Cut), cs ≠ [] → (∀ c ∈ cs, c.Plain f.freq) → (∀ c ∈ cs, c.Accepted f.freq) → ∀ (us : List Time),
    (∀ i : Int, 0 < i → i < f.n → ((∃ t ∈ us, f.fallsIn i t = true) ↔ ∃ c ∈ cs, c.Begins f i)) → ∀ {l : Layout L}, (∀ p, l ≠ .pattern p) →
    ∀ {s : Span}, s.Within f.n → ∀ st, Layout.run f (l.nest cs) s st = Layout.run f (.organizer (.marks us) [l]) s st
  | [], h, _, _, _, _, _, _, _, _, _ => absurd rfl h
  | [c], _, hp, ha, us, hu, l, hl, s, hs, st => by
    obtain ⟨ss, e, t, hin, k⟩ := (hp c (List.mem_cons_self ..)).begins (ha c (List.mem_cons_self ..)) s hs
    obtain ⟨ss', e', t', hin', k'⟩ := (Cut.Plain.marks us).begins (f := f) trivial s hs
    show Layout.run f (.organizer c [l]) s st = _
    rw [Layout.run_one e, Layout.run_one e',
      foldlM_bare hl ss hin, foldlM_bare hl ss' hin']
    rw [t.same_bare t' (fun i h1 h2 => ?_)]
    rw [k i h1 h2, k' i h1 h2]
    have h0 := hs.1
    have hn := hs.2.2
    have := hu i (by omega) (by omega)
    constructor
    · intro h; exact this.2 ⟨c, List.mem_cons_self .., h⟩
    · intro h
      obtain ⟨c', hc', hb⟩ := this.1 h
      rcases List.mem_cons.1 hc' with rfl | hc'
      · exact hb
      · cases hc'
  | c :: c2 :: cs, _, hp, ha, us, hu, l, hl, s, hs, st => by
    obtain ⟨us2, hus2⟩ := f.marks_exist (fun i => ∃ c ∈ c2 :: cs, c.Begins f i)
    have ih := fun {s : Span} (hs : s.Within f.n) st => Layout.run_as_marks (c2 :: cs) (fun h => by cases h) (fun x hx => hp x (List.mem_cons_of_mem _ hx))
      (fun x hx => ha x (List.mem_cons_of_mem _ hx)) us2 (fun i h1 h2 => hus2 i (by omega) h2) hl hs st
    have e0 : Layout.run f (l.nest (c :: c2 :: cs)) s st = Layout.run f (.organizer c [.organizer (.marks us2) [l]]) s st := Layout.run_inside c ih hs st
    obtain ⟨ss, t, hin, k, e⟩ := Layout.run_pointwise (L := L) ((hp c (List.mem_cons_self ..)).begins (ha c (List.mem_cons_self ..)))
      ((Cut.Plain.marks us2).begins (f := f) trivial) hs
    obtain ⟨ss', e', t', hin', k'⟩ := (Cut.Plain.marks us).begins (f := f) trivial s hs
    rw [e0, e, Layout.run_one e',
      foldlM_bare hl ss hin, foldlM_bare hl ss' hin']
    rw [t.same_bare t' (fun i h1 h2 => ?_)]
    rw [k i h1 h2, k' i h1 h2]
    have h0 := hs.1
    have hn := hs.2.2
    have a1 := hu i (by omega) (by omega)
    have a2 := hus2 i (by omega) (by omega)
    constructor
    · rintro (h | h)
      · exact a1.2 ⟨c, List.mem_cons_self .., h⟩
      · obtain ⟨c', hc', hb⟩ := a2.1 h
        exact a1.2 ⟨c', List.mem_cons_of_mem _ hc', hb⟩
    · intro h
      obtain ⟨c', hc', hb⟩ := a1.1 h
      rcases List.mem_cons.1 hc' with rfl | hc'
      · exact .inl hb
      · exact .inr (a2.2 ⟨c', hc', hb⟩)

end TB
