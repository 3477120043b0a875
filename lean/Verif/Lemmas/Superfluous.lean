import Verif.Spec.Superfluous
import Verif.Lemmas.Notation
import Verif.Props.Keeping
import Verif.Props.Dangles
import Verif.Lemmas.TwoGoes
/-! Superfluous organizers: lemmas. -/
namespace TB
variable {L : Type}

/-- The steps do the same with the spans of a kind. -/
inductive StepsOn (P : Span → Prop) : List (Step L) → List (Step L) → Prop where
  | nil : StepsOn P [] []
  | cons {p q : Step L} {ps qs : List (Step L)} (h : ∀ s, P s → ∀ st, p s st = q s st) (hs : StepsOn P ps qs) : StepsOn P (p :: ps) (q :: qs)

theorem StepsOn.refl (P : Span → Prop) : ∀ ps : List (Step L), StepsOn P ps ps
  | [] => .nil
  | _ :: ps => .cons (fun _ _ _ => rfl) (StepsOn.refl P ps)

theorem StepsOn.append {P : Span → Prop} {ps qs ps' qs' : List (Step L)} (h : StepsOn P ps qs) (h' : StepsOn P ps' qs') : StepsOn P (ps ++ ps') (qs ++ qs') := by
  induction h with
  | nil => exact h'
  | cons h _ ih => exact .cons h ih

theorem zipRun_on {P : Span → Prop} : ∀ (ss : List Span) (_ : ∀ s ∈ ss, P s) {c c' : Cycle (Step L)} (_ : StepsOn P c.saved c'.saved) (_ : StepsOn P c.rest c'.rest)
    (st : TLState L), zipRun ss c st = zipRun ss c' st
  | [], _, _, _, _, _, _ => rfl
  | s :: ss, hss, ⟨sv, rs⟩, ⟨sv', rs'⟩, h1, h2, st => by
    have one : ∀ {p q : Step L} {ps qs : List (Step L)}, (∀ s, P s → ∀ st, p s st = q s st) → StepsOn P ps qs →
        ((match p s st with
          | .error e => (.error e : Except Err (TLState L))
          | .ok st' => zipRun ss ⟨sv, ps⟩ st') =
        (match q s st with
          | .error e => (.error e : Except Err (TLState L))
          | .ok st' => zipRun ss ⟨sv', qs⟩ st')) := by
      intro p q ps qs hp hps
      rw [hp s (hss s (List.mem_cons_self ..)) st]
      cases q s st with
      | ok st1 => exact zipRun_on ss (fun x hx => hss x (List.mem_cons_of_mem _ hx)) (c := ⟨sv, ps⟩) (c' := ⟨sv', qs⟩) h1 hps st1
      | error e => rfl
    unfold zipRun
    simp only at h1 h2
    cases h2 with
    | cons hp hps => exact one hp hps
    | nil =>
      cases h1 with
      | nil => rfl
      | cons hp hps => exact one hp hps

theorem Frame.cutSpan_skips {f : Frame} (c : Cut) {s : Span} (hs : s.Within f.n) (y z : Int) :
    f.cutSpan c { s with skipLeft := y, skipRight := z } = f.cutSpan c s := by
  rw [Frame.cutSpan_eq c hs.1 hs.2.1 hs.2.2, Frame.cutSpan_eq c (s := { s with skipLeft := y, skipRight := z }) hs.1 hs.2.1 hs.2.2]
  cases c <;> rfl

/-- What is missing before a span matters for patterns only, and what is missing after it does not matter. -/
theorem Layout.run_skips (f : Frame) {l : Layout L} {s : Span} (hs : s.Within f.n) (y z : Int) (hl : (∀ p, l ≠ .pattern p) ∨ y = s.skipLeft)
    (st : TLState L) : Layout.run f l { s with skipLeft := y, skipRight := z } st = Layout.run f l s st := by
  cases l with
  | organizer cut elems => unfold Layout.run; rw [Frame.cutSpan_skips cut hs]
  | organizerRP cut id => unfold Layout.run; rw [Frame.cutSpan_skips cut hs]
  | pattern p =>
    rcases hl with hl | rfl
    · exact absurd rfl (hl p)
    · rfl
  | label l => rfl

theorem zipRun_one {p : Step L} {ps : List (Step L)} (x : Span) (st : TLState L) : zipRun [x] (Cycle.start (p :: ps)) st = p x st := by
  unfold zipRun
  simp only [Cycle.start, Cycle.next, zipRun]
  cases p x st <;> rfl

/-- The span of a period is not divided further by the periods, or by longer ones. -/
theorem Frame.cut_again {f : Frame} {q g : Freq} (hc : checkGroupbyFreq f.freq q = true) (hq : q.mult = 1) (hg : g.base.UnitsOf q.base)
    (hcg : checkGroupbyFreq f.freq g = true) {s : Span} (hs : s.Within f.n) {ss : List Span} (hcut : f.cutSpan (.marker ⟨q, []⟩) s = .ok ss)
    {x : Span} (hx : x ∈ ss) : ∃ y z, f.cutSpan (.marker ⟨g, []⟩) x = .ok [{ x with skipLeft := y, skipRight := z }] ∧ (g = q → y = x.skipLeft) := by
  have hcut' : f.cut s (.marker ⟨q, []⟩) = .ok ss := by rw [← Frame.cutSpan_eq _ hs.1 hs.2.1 hs.2.2]; exact hcut
  obtain ⟨ht, hin⟩ := Frame.cut_within hs hcut'
  have hxw := hin x hx
  obtain ⟨xs, e1, t1, k1⟩ := C05_calendar_spans f x g hcg hxw.1 hxw.2.1 hxw.2.2
  have hun := Frame.part_unsplit hc hq hs hcut' hx
  have hone : ∃ x', xs = [x'] ∧ x'.first = x.first ∧ x'.last = x.last := by
    match xs, t1, k1 with
    | [x'], t1, _ => exact ⟨x', rfl, t1.1, t1.2.1⟩
    | x1 :: x2 :: rest, t1, k1 =>
      exfalso
      have m1 := t1.mem (List.mem_cons_self ..)
      have m2 := t1.mem (List.mem_cons_of_mem _ (List.mem_cons_self ..))
      have lt := t1.lt_of_index (j := 0) (k := 1) (by omega) rfl rfl
      obtain ⟨p, hp, _, a1, a2⟩ := (k1 x2.first (by omega) (by omega)).1 ⟨x2, List.mem_cons_of_mem _ (List.mem_cons_self ..), rfl⟩
      obtain ⟨o', ho'⟩ := hg p.ord
      have e : p.startTime = q.base.startOf o' := by rw [← ho', ← hp]; rfl
      have b1 := (Frame.unitStart_lt_iff (f := f)).2 (show x.first < x2.first by omega)
      have b2 := Frame.unitStart_monotone (f := f) (show x2.first + 1 ≤ x.last + 1 by omega)
      rw [Frame.unitEnd_eq] at a2
      have := hun o'
      rw [Frame.unitEnd_eq] at this
      omega
  obtain ⟨x', rfl, f1, f2⟩ := hone
  refine ⟨x'.skipLeft, x'.skipRight, ?_, ?_⟩
  · show f.partitionWithMarker x ⟨g, []⟩ = _
    rw [e1]
    obtain ⟨a, b, c, d⟩ := x'
    simp only at f1 f2
    rw [f1, f2]
  · rintro rfl
    obtain ⟨ss1, X, Y, _, d1, dx, _, _, d2, _⟩ := C79_calendar_dangles f s g hc hs.1 hs.2.1 hs.2.2
    have e2 : f.partitionWithMarker s ⟨g, []⟩ = .ok ss := hcut
    rw [d1] at e2
    cases e2
    obtain ⟨xs1, X', Y', _, d1', dx', _, _, d2', _⟩ := C79_calendar_dangles f x g hc hxw.1 hxw.2.1 hxw.2.2
    rw [e1] at d1'
    cases d1'
    have ex : x'.skipLeft = X' := by simpa using (List.cons.inj dx'.1).1
    rw [ex]
    obtain ⟨k, hk⟩ := List.getElem?_of_mem hx
    have hsk : x.skipLeft = (X :: List.replicate (ss.length - 1) 0)[k]?.getD 0 := by
      rw [← dx.1, List.getElem?_map, hk]; rfl
    cases k with
    | zero =>
      have hf := ht.first_zero hk
      rw [hsk]
      show X' = X
      rw [← hf] at d2
      rw [← d2] at d2'
      rcases Int.lt_trichotomy X' X with h | h | h
      · have := (Frame.unitStart_lt_iff (f := f)).2 (show x.first - X < x.first - X' by omega); omega
      · exact h
      · have := (Frame.unitStart_lt_iff (f := f)).2 (show x.first - X' < x.first - X by omega); omega
    | succ k =>
      have h0 : x.skipLeft = 0 := by
        rw [hsk, List.getElem?_cons_succ]
        rcases h : (List.replicate (ss.length - 1) (0 : Int))[k]? with _ | v
        · rfl
        · exact List.eq_of_mem_replicate (List.mem_of_getElem? h)
      rw [h0]
      obtain ⟨ss2, k1', t2, k2⟩ := C05_calendar_spans f s g hc hs.1 hs.2.1 hs.2.2
      rw [d1] at k1'
      cases k1'
      have hlen : ∃ z, ss[0]? = some z := by
        cases ss with
        | nil => simp at hk
        | cons z _ => exact ⟨z, rfl⟩
      obtain ⟨z, hz⟩ := hlen
      have lt := ht.lt_of_index (j := 0) (k := k + 1) (by omega) hz hk
      have mz := ht.mem (List.mem_of_getElem? hz)
      have mx := ht.mem hx
      obtain ⟨p, hp, _, a1, a2⟩ := (k2 x.first (by omega) (by omega)).1 ⟨x, hx, rfl⟩
      have hu := Frame.unit_unsplit hc hq x.first p.ord
      have ep : p.startTime = g.base.startOf p.ord := by rw [← hp]; rfl
      have e3 : f.unitStart x.first = g.base.startOf p.ord := by omega
      have e4 : (Period.ofTime g (f.unitStart x.first)).startTime = f.unitStart x.first := by
        show g.base.startOf (g.base.ordOf (f.unitStart x.first)) = _
        rw [e3, Base.ordOf_startOf]
      rw [e4] at d2'
      rcases Int.lt_trichotomy X' 0 with h | h | h
      · have := (Frame.unitStart_lt_iff (f := f)).2 (show x.first < x.first - X' by omega); omega
      · exact h
      · have := (Frame.unitStart_lt_iff (f := f)).2 (show x.first - X' < x.first by omega); omega

theorem Frame.cut_whole {f : Frame} {s : Span} (hs : s.Within f.n) : f.cutSpan (.marks []) s = .ok [{ s with skipLeft := 0, skipRight := 0 }] := by
  rw [Frame.cutSpan_eq _ hs.1 hs.2.1 hs.2.2]
  show Except.ok ((groups (fun i => ([] : List Time).any (f.fallsIn i)) (intRange s.first (s.last + 1))).map _) = _
  have h1 := hs.2.1
  rw [(groups_range _ s.last (s.last - s.first).toNat s.first (by omega)).1]
  have e : (intRange (s.first + 1) (s.last + 1)).filter (fun i => ([] : List Time).any (f.fallsIn i)) = [] := List.filter_eq_nil_iff.2 (fun _ _ => by simp)
  rw [e]
  rfl

theorem Layout.run_again {f : Frame} {q g : Freq} (hq : q.mult = 1) (hg : g.base.UnitsOf q.base) (hcg : g = q ∨ checkGroupbyFreq f.freq g = true)
    (pre post : List (Layout L)) {l : Layout L} (es : List (Layout L)) (hl : (∀ p, l ≠ .pattern p) ∨ g = q) {s : Span} (hs : s.Within f.n) (st : TLState L) :
    Layout.run f (.organizer (.marker ⟨q, []⟩) (pre ++ .organizer (.marker ⟨g, []⟩) (l :: es) :: post)) s st =
    Layout.run f (.organizer (.marker ⟨q, []⟩) (pre ++ l :: post)) s st := by
  unfold Layout.run
  cases hcut : f.cutSpan (.marker ⟨q, []⟩) s with
  | error e => rfl
  | ok ss =>
    have hc : checkGroupbyFreq f.freq q = true := by
      cases h : checkGroupbyFreq f.freq q with
      | true => rfl
      | false =>
        have h' : f.partitionWithMarker s ⟨q, []⟩ = .ok ss := hcut
        unfold Frame.partitionWithMarker at h'
        rw [h] at h'
        cases h'
    have hcg' : checkGroupbyFreq f.freq g = true := by
      rcases hcg with rfl | h
      · exact hc
      · exact h
    have hcut' : f.cut s (.marker ⟨q, []⟩) = .ok ss := by rw [← Frame.cutSpan_eq _ hs.1 hs.2.1 hs.2.2]; exact hcut
    have hin := (Frame.cut_within hs hcut').2
    have hst : StepsOn (fun x => x ∈ ss) (Layout.runAll f (pre ++ .organizer (.marker ⟨g, []⟩) (l :: es) :: post)) (Layout.runAll f (pre ++ l :: post)) := by
      rw [Layout.runAll_append, Layout.runAll_append]
      refine (StepsOn.refl _ _).append (.cons (fun x hx st => ?_) (StepsOn.refl _ _))
      obtain ⟨y, z, e, hy⟩ := Frame.cut_again hc hq hg hcg' hs hcut hx
      rw [show Layout.run f (.organizer (.marker ⟨g, []⟩) (l :: es)) x st = _ by unfold Layout.run; rw [e]]
      show zipRun _ (Cycle.start (Layout.run f l :: Layout.runAll f es)) st = _
      rw [zipRun_one]
      exact Layout.run_skips f (hin x hx) y z (hl.imp_right hy) st
    exact zipRun_on ss (fun _ h => h) hst hst st

/-- The span without what is missing after it. -/
def Span.noRight (s : Span) : Span := { s with skipRight := 0 }

theorem zipRun_each {p : Step L} : ∀ (ss : List Span) (rest : List (Step L)), (rest = [] ∨ rest = [p]) → ∀ st : TLState L,
    zipRun ss ⟨[p], rest⟩ st = ss.foldlM (fun st s => p s st) st
  | [], _, _, _ => rfl
  | s :: ss, rest, hr, st => by
    have e : zipRun (s :: ss) ⟨[p], rest⟩ st = match p s st with
        | .error e => .error e
        | .ok st' => zipRun ss ⟨[p], []⟩ st' := by
      rcases hr with rfl | rfl <;> rfl
    rw [e, List.foldlM_cons]
    cases h : p s st with
    | error e => rfl
    | ok st' => exact zipRun_each ss [] (.inl rfl) st'

theorem foldlM_flatMap (p : Step L) (xs : Span → List Span) : ∀ (ss : List Span) (st : TLState L),
    (ss.flatMap xs).foldlM (fun st s => p s st) st = ss.foldlM (fun st s => (xs s).foldlM (fun st s => p s st) st) st
  | [], _ => rfl
  | s :: ss, st => by
    rw [List.flatMap_cons, List.foldlM_append, List.foldlM_cons]
    cases (xs s).foldlM (fun st s => p s st) st with
    | error e => rfl
    | ok st' => exact foldlM_flatMap p xs ss st'

theorem foldlM_same {p q : Step L} : ∀ (ss : List Span) (_ : ∀ s ∈ ss, ∀ st, p s st = q s st) (st : TLState L),
    ss.foldlM (fun st s => p s st) st = ss.foldlM (fun st s => q s st) st
  | [], _, _ => rfl
  | s :: ss, h, st => by
    rw [List.foldlM_cons, List.foldlM_cons, h s (List.mem_cons_self ..)]
    cases q s st with
    | error e => rfl
    | ok st' => exact foldlM_same ss (fun x hx => h x (List.mem_cons_of_mem _ hx)) st'

theorem foldlM_noRight {f : Frame} {l : Layout L} : ∀ (ss : List Span) (_ : ∀ s ∈ ss, s.Within f.n) (st : TLState L),
    ss.foldlM (fun st s => Layout.run f l s st) st = (ss.map Span.noRight).foldlM (fun st s => Layout.run f l s st) st
  | [], _, _ => rfl
  | s :: ss, h, st => by
    rw [List.map_cons, List.foldlM_cons, List.foldlM_cons]
    have e : Layout.run f l s.noRight st = Layout.run f l s st := Layout.run_skips f (h s (List.mem_cons_self ..)) s.skipLeft 0 (.inr rfl) st
    rw [e]
    cases Layout.run f l s st with
    | error e => rfl
    | ok st' => exact foldlM_noRight ss (fun x hx => h x (List.mem_cons_of_mem _ hx)) st'

/-- A division is known from the starts of its parts. -/
theorem Tiles.same : ∀ {ss ss' : List Span} {a b : Int}, Tiles a b ss → Tiles a b ss' →
    (∀ i, a < i → i ≤ b → ((∃ x ∈ ss, x.first = i) ↔ ∃ x ∈ ss', x.first = i)) →
    (∀ x ∈ ss, ∀ y ∈ ss', x.first = y.first → x.skipLeft = y.skipLeft) → ss.map Span.noRight = ss'.map Span.noRight
  | [], _, _, _, h, _, _, _ => h.elim
  | _ :: _, [], _, _, _, h, _, _ => h.elim
  | s :: r, s' :: r', a, b, h, h', hi, hk => by
    have a1 := h.head
    have a2 := h'.head
    have e : s.last = s'.last := by
      rcases Int.lt_trichotomy s.last s'.last with lt | e | lt
      · exfalso
        rcases h.tail with ⟨_, t⟩ | t
        · omega
        · have t1 : ∃ x ∈ r, x.first = s.last + 1 := by
            cases r with
            | nil => exact t.elim
            | cons x r => exact ⟨x, List.mem_cons_self .., t.head.1⟩
          obtain ⟨x, hx, ex⟩ := t1
          obtain ⟨y, hy, ey⟩ := (hi (s.last + 1) (by omega) (by omega)).1 ⟨x, List.mem_cons_of_mem _ hx, ex⟩
          exact h'.starts_apart (List.mem_cons_self ..) hy ⟨by omega, by omega⟩
      · exact e
      · exfalso
        rcases h'.tail with ⟨_, t⟩ | t
        · omega
        · have t1 : ∃ x ∈ r', x.first = s'.last + 1 := by
            cases r' with
            | nil => exact t.elim
            | cons x r => exact ⟨x, List.mem_cons_self .., t.head.1⟩
          obtain ⟨x, hx, ex⟩ := t1
          obtain ⟨y, hy, ey⟩ := (hi (s'.last + 1) (by omega) (by omega)).2 ⟨x, List.mem_cons_of_mem _ hx, ex⟩
          exact h.starts_apart (List.mem_cons_self ..) hy ⟨by omega, by omega⟩
    have e0 : s.noRight = s'.noRight := by
      have e1 := hk s (List.mem_cons_self ..) s' (List.mem_cons_self ..) (by omega)
      have e2 : s.first = s'.first := by omega
      unfold Span.noRight
      rw [e1, e2, e]
    rw [List.map_cons, List.map_cons, e0]
    congr 1
    rcases h.tail with ⟨rfl, t⟩ | t
    · rcases h'.tail with ⟨rfl, t'⟩ | t'
      · rfl
      · have := t'.le; omega
    · rcases h'.tail with ⟨rfl, t'⟩ | t'
      · have := t.le; omega
      · rw [← e] at t'
        refine Tiles.same t t' (fun i h1 h2 => ?_) (fun x hx y hy => hk x (List.mem_cons_of_mem _ hx) y (List.mem_cons_of_mem _ hy))
        have := hi i (by omega) h2
        constructor
        · rintro ⟨x, hx, rfl⟩
          obtain ⟨y, hy, ey⟩ := this.1 ⟨x, List.mem_cons_of_mem _ hx, rfl⟩
          rcases List.mem_cons.1 hy with rfl | hy
          · omega
          · exact ⟨y, hy, ey⟩
        · rintro ⟨x, hx, rfl⟩
          obtain ⟨y, hy, ey⟩ := this.2 ⟨x, List.mem_cons_of_mem _ hx, rfl⟩
          rcases List.mem_cons.1 hy with rfl | hy
          · omega
          · exact ⟨y, hy, ey⟩

theorem Tiles.flatMap {xs : Span → List Span} : ∀ {ss : List Span} {a b : Int}, Tiles a b ss → (∀ x ∈ ss, Tiles x.first x.last (xs x)) → Tiles a b (ss.flatMap xs)
  | [], _, _, h, _ => h.elim
  | s :: r, a, b, h, hx => by
    have h1 := h.head
    have k := hx s (List.mem_cons_self ..)
    rw [h1.1] at k
    rw [List.flatMap_cons]
    rcases h.tail with ⟨rfl, t⟩ | t
    · rw [← t]; simpa using k
    · exact k.append (Tiles.flatMap t (fun x h => hx x (List.mem_cons_of_mem _ h)))

theorem Tiles.flatMap_starts {xs : Span → List Span} {P : Int → Prop} {ss : List Span} {a b : Int} (h : Tiles a b ss)
    (hx : ∀ x ∈ ss, Tiles x.first x.last (xs x)) (h1 : ∀ x ∈ ss, a < x.first → P x.first)
    (h2 : ∀ x ∈ ss, ∀ i, x.first < i → i ≤ x.last → ((∃ y ∈ xs x, y.first = i) ↔ P i)) (i : Int) (ha : a < i) (hb : i ≤ b) :
    (∃ y ∈ ss.flatMap xs, y.first = i) ↔ P i := by
  constructor
  · rintro ⟨y, hy, rfl⟩
    obtain ⟨x, hxs, hyx⟩ := List.mem_flatMap.1 hy
    have m := (hx x hxs).mem hyx
    by_cases e : x.first = y.first
    · rw [← e]; exact h1 x hxs (by omega)
    · exact (h2 x hxs y.first (by omega) (by omega)).1 ⟨y, hyx, rfl⟩
  · intro hp
    obtain ⟨k, x, hk, c1, c2⟩ := h.cover (i := i) (by omega) hb
    have hxs := List.mem_of_getElem? hk
    by_cases e : x.first = i
    · have t := hx x hxs
      cases hl : xs x with
      | nil => rw [hl] at t; exact t.elim
      | cons y ys =>
        rw [hl] at t
        exact ⟨y, List.mem_flatMap.2 ⟨x, hxs, by rw [hl]; exact List.mem_cons_self ..⟩, by rw [t.head.1, e]⟩
    · obtain ⟨y, hy, ey⟩ := (h2 x hxs i (by omega) c2).2 hp
      exact ⟨y, List.mem_flatMap.2 ⟨x, hxs, hy⟩, ey⟩

/-- Two divisions, one after the other, which together are a third one. -/
theorem Layout.run_twofold {f : Frame} {c c' d : Cut} {s : Span} (hs : s.Within f.n) {ss ss2 : List Span} {xs : Span → List Span}
    (h1 : f.cutSpan c s = .ok ss) (h2 : ∀ x ∈ ss, f.cutSpan c' x = .ok (xs x)) (h3 : f.cutSpan d s = .ok ss2)
    (he : (ss.flatMap xs).map Span.noRight = ss2.map Span.noRight) (l : Layout L) (st : TLState L) :
    Layout.run f (.organizer c [.organizer c' [l]]) s st = Layout.run f (.organizer d [l]) s st := by
  have within : ∀ {s : Span} {c : Cut} {ss : List Span}, s.Within f.n → f.cutSpan c s = .ok ss → ∀ x ∈ ss, x.Within f.n := by
    intro s c ss hs h
    rw [Frame.cutSpan_eq _ hs.1 hs.2.1 hs.2.2] at h
    exact (Frame.cut_within hs h).2
  have e1 : Layout.run f (.organizer c [.organizer c' [l]]) s st = ss.foldlM (fun st s => Layout.run f (.organizer c' [l]) s st) st := by
    rw [show Layout.run f (.organizer c [.organizer c' [l]]) s st = _ by unfold Layout.run; rw [h1]]
    exact zipRun_each ss _ (.inr rfl) st
  have e2 : Layout.run f (.organizer d [l]) s st = ss2.foldlM (fun st s => Layout.run f l s st) st := by
    rw [show Layout.run f (.organizer d [l]) s st = _ by unfold Layout.run; rw [h3]]
    exact zipRun_each ss2 _ (.inr rfl) st
  have e3 : ∀ x ∈ ss, ∀ st, Layout.run f (.organizer c' [l]) x st = (xs x).foldlM (fun st s => Layout.run f l s st) st := by
    intro x hx st
    rw [show Layout.run f (.organizer c' [l]) x st = _ by unfold Layout.run; rw [h2 x hx]]
    exact zipRun_each (xs x) _ (.inr rfl) st
  rw [e1, e2, foldlM_same (q := fun x st => (xs x).foldlM (fun st s => Layout.run f l s st) st) ss e3, ← foldlM_flatMap (Layout.run f l) xs,
    foldlM_noRight ss2 (within hs h3), ← he]
  refine foldlM_noRight _ (fun y hy => ?_) st
  obtain ⟨x, hx, hyx⟩ := List.mem_flatMap.1 hy
  exact within (within hs h1 x hx) (h2 x hx) y hyx

theorem Frame.divide_starts {f : Frame} {s : Span} (hs : s.Within f.n) (ts : List Time) (i : Int) (h1 : s.first < i) (h2 : i ≤ s.last) :
    (∃ x ∈ f.divide s ts, x.first = i) ↔ ∃ t ∈ ts, f.fallsIn i t = true := by
  have h0 := hs.2.1
  unfold Frame.divide
  rw [(groups_range _ s.last (s.last - s.first).toNat s.first (by omega)).1, spansBetween_first, List.mem_filter, mem_intRange, List.any_eq_true]
  constructor
  · rintro (h | ⟨_, h⟩)
    · omega
    · exact h
  · exact fun h => .inr ⟨by omega, h⟩

/-- Marks at two levels are the same as all of them at one. -/
theorem Layout.run_marks_twofold {f : Frame} (ts ts' : List Time) (l : Layout L) {s : Span} (hs : s.Within f.n) (st : TLState L) :
    Layout.run f (.organizer (.marks ts) [.organizer (.marks ts') [l]]) s st = Layout.run f (.organizer (.marks (ts ++ ts')) [l]) s st := by
  have hin := (Frame.cut_within (c := .marks ts) hs rfl).2
  have ht := Frame.divide_tiles hs ts
  have hcut : ∀ (ts : List Time) {s : Span}, s.Within f.n → f.cutSpan (.marks ts) s = .ok (f.divide s ts) := fun ts s hs => by
    rw [Frame.cutSpan_eq _ hs.1 hs.2.1 hs.2.2]; rfl
  refine Layout.run_twofold hs (xs := fun x => f.divide x ts') (hcut ts hs) (fun x hx => hcut ts' (hin x hx)) (hcut _ hs) ?_ l st
  have hx : ∀ x ∈ f.divide s ts, Tiles x.first x.last (f.divide x ts') := fun x hx => Frame.divide_tiles (hin x hx) ts'
  refine Tiles.same (ht.flatMap hx) (Frame.divide_tiles hs _) (fun i h1 h2 => ?_) (fun x hx y hy _ => ?_)
  · rw [Frame.divide_starts hs _ i h1 h2]
    refine ht.flatMap_starts hx (P := fun i => ∃ t ∈ ts ++ ts', f.fallsIn i t = true) (fun x hx h => ?_) (fun x hx i h1 h2 => ?_) i h1 h2
    · have := ht.mem hx
      obtain ⟨t, m, e⟩ := (Frame.divide_starts hs ts x.first h (by omega)).1 ⟨x, hx, rfl⟩
      exact ⟨t, List.mem_append_left _ m, e⟩
    · have m := ht.mem hx
      rw [Frame.divide_starts (hin x hx) ts' i h1 h2]
      constructor
      · rintro ⟨t, m, e⟩; exact ⟨t, List.mem_append_right _ m, e⟩
      · rintro ⟨t, mt, e⟩
        rcases List.mem_append.1 mt with mt | mt
        · obtain ⟨y, hy, ey⟩ := (Frame.divide_starts hs ts i (by omega) (by omega)).2 ⟨t, mt, e⟩
          exact absurd ⟨by omega, by omega⟩ (ht.starts_apart hx hy)
        · exact ⟨t, mt, e⟩
  · obtain ⟨z, hz, hxz⟩ := List.mem_flatMap.1 hx
    rw [(divide_skips f z ts' x hxz).1, (divide_skips f s _ y hy).1]

/-- What is missing from a part is counted from the start of its period. -/
theorem Frame.cut_missing {f : Frame} {q : Freq} (hc : checkGroupbyFreq f.freq q = true) (hq : q.mult = 1) {s : Span} (hs : s.Within f.n)
    {ss : List Span} (hcut : f.cutSpan (.marker ⟨q, []⟩) s = .ok ss) {x : Span} (hx : x ∈ ss) :
    f.unitStart (x.first - x.skipLeft) = (Period.ofTime q (f.unitStart x.first)).startTime := by
  obtain ⟨y, z, e, hy⟩ := Frame.cut_again hc hq (fun o => ⟨o, rfl⟩) hc hs hcut hx
  have hcut' : f.cut s (.marker ⟨q, []⟩) = .ok ss := by rw [← Frame.cutSpan_eq _ hs.1 hs.2.1 hs.2.2]; exact hcut
  have hxw := (Frame.cut_within hs hcut').2 x hx
  obtain ⟨xs1, X', Y', _, d1, dx, _, _, d2, _⟩ := C79_calendar_dangles f x q hc hxw.1 hxw.2.1 hxw.2.2
  have e' : f.partitionWithMarker x ⟨q, []⟩ = .ok [{ x with skipLeft := y, skipRight := z }] := e
  rw [d1] at e'
  cases e'
  have ex : y = X' := by simpa using (List.cons.inj dx.1).1
  rw [← hy rfl, ex]
  exact d2

/-- Shorter periods directly inside longer ones made of them are the same as the shorter ones alone. -/
theorem Layout.run_periods_twofold {f : Frame} {q g : Freq} (hc : checkGroupbyFreq f.freq q = true) (hq : q.mult = 1) (hg : g.mult = 1)
    (hu : q.base.UnitsOf g.base) (l : Layout L) {s : Span} (hs : s.Within f.n) (st : TLState L) :
    Layout.run f (.organizer (.marker ⟨q, []⟩) [.organizer (.marker ⟨g, []⟩) [l]]) s st = Layout.run f (.organizer (.marker ⟨g, []⟩) [l]) s st := by
  obtain ⟨ss, e1, t1, k1⟩ := C05_calendar_spans f s q hc hs.1 hs.2.1 hs.2.2
  have hcut : f.cutSpan (.marker ⟨q, []⟩) s = .ok ss := e1
  have hcut' : f.cut s (.marker ⟨q, []⟩) = .ok ss := by rw [← Frame.cutSpan_eq _ hs.1 hs.2.1 hs.2.2]; exact hcut
  have hin := (Frame.cut_within hs hcut').2
  cases hcg : checkGroupbyFreq f.freq g with
  | false =>
    have bad : ∀ s : Span, f.cutSpan (.marker ⟨g, []⟩) s = .error .unacceptablePeriod := by
      intro s
      show f.partitionWithMarker s ⟨g, []⟩ = _
      unfold Frame.partitionWithMarker
      rw [hcg]
      rfl
    have bad' : ∀ (s : Span) (st : TLState L), Layout.run f (.organizer (.marker ⟨g, []⟩) [l]) s st = .error .unacceptablePeriod := by
      intro s st
      rw [show Layout.run f (.organizer (.marker ⟨g, []⟩) [l]) s st = _ by unfold Layout.run; rw [bad s]]
    rw [bad' s st]
    rw [show Layout.run f (.organizer (.marker ⟨q, []⟩) [.organizer (.marker ⟨g, []⟩) [l]]) s st = _ by unfold Layout.run; rw [hcut]]
    show zipRun ss (Cycle.start [Layout.run f (.organizer (.marker ⟨g, []⟩) [l])]) st = _
    cases ss with
    | nil => exact t1.elim
    | cons x r =>
      rw [show Cycle.start [Layout.run f (.organizer (.marker ⟨g, []⟩) [l])] = ⟨[Layout.run f (.organizer (.marker ⟨g, []⟩) [l])], [Layout.run f (.organizer (.marker ⟨g, []⟩) [l])]⟩ from rfl,
        zipRun_each _ _ (.inr rfl), List.foldlM_cons, bad' x st]
      rfl
  | true =>
    have hpart : ∀ x : Span, x.Within f.n → ∃ xs, f.cutSpan (.marker ⟨g, []⟩) x = .ok xs ∧ Tiles x.first x.last xs ∧
        ∀ i, x.first < i → i ≤ x.last → ((∃ y ∈ xs, y.first = i) ↔ ∃ o, f.unitStart i = g.base.startOf o) := by
      intro x hx
      obtain ⟨xs, e2, t2, k2⟩ := C05_calendar_spans f x g hcg hx.1 hx.2.1 hx.2.2
      refine ⟨xs, e2, t2, fun i h1 h2 => ?_⟩
      rw [k2 i h1 h2]
      constructor
      · rintro ⟨p, hp, _, a1, a2⟩
        have ep : p.startTime = g.base.startOf p.ord := by rw [← hp]; rfl
        have := Frame.unit_unsplit hcg hg i p.ord
        exact ⟨p.ord, by omega⟩
      · rintro ⟨o, ho⟩
        refine ⟨⟨g, o⟩, rfl, by rw [hg]; exact ⟨_, (Int.one_mul _).symm⟩, ?_, ?_⟩
        · show _ ≤ g.base.startOf o
          rw [ho]; exact Int.le_refl _
        · show g.base.startOf o ≤ _
          rw [← ho]; exact Frame.unitStart_le_unitEnd' (Int.le_refl _)
    obtain ⟨ss2, c2, t2, k2⟩ := hpart s hs
    have hxs : ∃ xs : Span → List Span, ∀ x, x.Within f.n → f.cutSpan (.marker ⟨g, []⟩) x = .ok (xs x) :=
      ⟨fun x => (match f.cutSpan (.marker ⟨g, []⟩) x with | .ok l => l | .error _ => []), fun x hx => by
        obtain ⟨xs, e, _⟩ := hpart x hx
        simp only [e]⟩
    obtain ⟨xs, hxs⟩ := hxs
    have hx : ∀ x ∈ ss, Tiles x.first x.last (xs x) ∧ ∀ i, x.first < i → i ≤ x.last → ((∃ y ∈ xs x, y.first = i) ↔ ∃ o, f.unitStart i = g.base.startOf o) := by
      intro x hx
      obtain ⟨l, e, h⟩ := hpart x (hin x hx)
      rw [hxs x (hin x hx)] at e
      cases e
      exact h
    refine Layout.run_twofold hs hcut (fun x h => hxs x (hin x h)) c2 ?_ l st
    refine Tiles.same (t1.flatMap (fun x h => (hx x h).1)) t2 (fun i h1 h2 => ?_) (fun x hxf y hy exy => ?_)
    · rw [k2 i h1 h2]
      refine t1.flatMap_starts (fun x h => (hx x h).1) (P := fun i => ∃ o, f.unitStart i = g.base.startOf o) (fun x hx h => ?_) (fun x h => (hx x h).2) i h1 h2
      have m := t1.mem hx
      obtain ⟨p, hp, _, a1, a2⟩ := (k1 x.first h (by omega)).1 ⟨x, hx, rfl⟩
      have ep : p.startTime = q.base.startOf p.ord := by rw [← hp]; rfl
      have := Frame.unit_unsplit hc hq x.first p.ord
      obtain ⟨o, ho⟩ := hu p.ord
      exact ⟨o, by omega⟩
    · obtain ⟨z, hz, hxz⟩ := List.mem_flatMap.1 hxf
      have s1 := Frame.cut_missing hcg hg (hin z hz) (hxs z (hin z hz)) hxz
      have s2 := Frame.cut_missing hcg hg hs c2 hy
      rw [← exy, ← s1] at s2
      rcases Int.lt_trichotomy x.skipLeft y.skipLeft with h | h | h
      · have := (Frame.unitStart_lt_iff (f := f)).2 (show x.first - y.skipLeft < x.first - x.skipLeft by omega); omega
      · exact h
      · have := (Frame.unitStart_lt_iff (f := f)).2 (show x.first - x.skipLeft < x.first - y.skipLeft by omega); omega

/-- Labels written one by one to single base units. -/
theorem zipRun_units : ∀ (ss : List Span) {a b : Int} (_ : Tiles a b ss) (_ : ∀ x ∈ ss, x.first = x.last) (sv rs : List L) (_ : sv ≠ []) (st : TLState L),
    ∃ ys src, Src.take (b + 1 - a).toNat (.fresh ⟨sv, rs⟩) st.heap = some (ys, src, st.heap) ∧
      zipRun ss ⟨sv.map makeCompound, rs.map makeCompound⟩ st = .ok { st with
        labels := fun i => if a ≤ i ∧ i ≤ b then (ys[(i - a).toNat]?).getD (st.labels i) else st.labels i }
  | [], _, _, h, _, _, _, _, _ => h.elim
  | s :: ss, a, b, h, hx, sv, rs, hsv, st => by
    have h1 := h.head
    have h2 := hx s (List.mem_cons_self ..)
    have hnext : ∃ x rs', (Cycle.mk sv rs).next = some (x, ⟨sv, rs'⟩) ∧
        (Cycle.mk (sv.map makeCompound) (rs.map makeCompound)).next = some ((makeCompound x : Step L), ⟨sv.map makeCompound, rs'.map makeCompound⟩) := by
      cases rs with
      | cons x r => exact ⟨x, r, rfl, rfl⟩
      | nil =>
        cases sv with
        | nil => exact absurd rfl hsv
        | cons x r => exact ⟨x, r, rfl, rfl⟩
    obtain ⟨x, rs', n1, n2⟩ := hnext
    have e : (b + 1 - a).toNat = (b + 1 - (a + 1)).toNat + 1 := by omega
    have hstep : (makeCompound x : Step L) s st = .ok { st with labels := fun i => if i = a then x else st.labels i } := by
      unfold makeCompound
      congr 1
      have : (fun i => if s.first + 1 ≤ i ∧ i ≤ s.last then false else st.mask i) = st.mask := by
        funext i; rw [if_neg (by omega)]
      rw [this, h1.1]
    have hz : zipRun (s :: ss) ⟨sv.map makeCompound, rs.map makeCompound⟩ st =
        zipRun ss ⟨sv.map makeCompound, rs'.map makeCompound⟩ { st with labels := fun i => if i = a then x else st.labels i } := by
      rw [zipRun, n2]
      simp only
      rw [hstep]
    rw [hz, e]
    rcases h.tail with ⟨rfl, t⟩ | t
    · have e0 : (b + 1 - (a + 1)).toNat = 0 := by omega
      refine ⟨[x], .fresh ⟨sv, rs'⟩, ?_, ?_⟩
      · rw [e0]
        simp only [Src.take, Src.next, n1]
      · rw [zipRun]
        congr 2
        funext i
        by_cases hi : i = a
        · subst hi
          rw [if_pos rfl, if_pos (by omega)]
          simp
        · rw [if_neg hi, if_neg (by omega)]
    · obtain ⟨ys, src, k1, k2⟩ := zipRun_units ss t (fun y hy => hx y (List.mem_cons_of_mem _ hy)) sv rs' hsv { st with labels := fun i => if i = a then x else st.labels i }
      have ea : s.last + 1 = a + 1 := by omega
      rw [ea] at k1 k2
      refine ⟨x :: ys, src, ?_, ?_⟩
      · simp only at k1
        simp only [Src.take, Src.next, n1, k1]
      · rw [k2]
        congr 2
        funext i
        simp only
        by_cases hi : i = a
        · subst hi
          rw [if_neg (by omega), if_pos rfl, if_pos (by omega)]
          simp
        · by_cases hi' : a ≤ i ∧ i ≤ b
          · have e' : (i - a).toNat = (i - (a + 1)).toNat + 1 := by omega
            rw [if_pos (by omega), if_neg hi, if_pos hi', e', List.getElem?_cons_succ]
          · rw [if_neg (by omega), if_neg hi, if_neg hi']

theorem Layout.runAll_label (f : Frame) (ls : List L) : Layout.runAll f (ls.map .label) = ls.map makeCompound := runAll_labels f ls

/-- Dividing by the base units themselves. -/
theorem Frame.cut_units {f : Frame} (hc : checkGroupbyFreq f.freq f.freq = true) {s : Span} (hs : s.Within f.n) :
    ∃ ss, f.cutSpan (.marker ⟨f.freq, []⟩) s = .ok ss ∧ Tiles s.first s.last ss ∧ ∀ x ∈ ss, x.first = x.last := by
  obtain ⟨ss, e, t, k⟩ := C05_calendar_spans f s f.freq hc hs.1 hs.2.1 hs.2.2
  refine ⟨ss, e, t, fun x hx => ?_⟩
  have m := t.mem hx
  rcases Int.lt_or_eq_of_le m.2.1 with lt | e
  · exfalso
    have hp : f.unitStart (x.first + 1) = (Period.mk f.freq (f.ord (x.first + 1))).startTime := rfl
    obtain ⟨y, hy, ey⟩ := (k (x.first + 1) (by omega) (by omega)).2 ⟨⟨f.freq, f.ord (x.first + 1)⟩, rfl, by
      show _ ∣ f.ord (x.first + 1) - f.freq.base.ordOf (f.freq.base.startOf (f.ord s.first))
      rw [Base.ordOf_startOf]
      refine ⟨x.first + 1 - s.first, ?_⟩
      unfold Frame.ord
      rw [Int.mul_sub]
      have c1 := Int.mul_comm (f.freq.mult : Int) (x.first + 1)
      have c2 := Int.mul_comm (f.freq.mult : Int) s.first
      omega, by rw [hp]; exact Int.le_refl _, by rw [← hp]; exact Frame.unitStart_le_unitEnd' (Int.le_refl _)⟩
    exact t.starts_apart hx hy ⟨by omega, by omega⟩
  · exact e

/-- An organizer by the base units is a pattern which begins with the span. -/
theorem Layout.run_units {f : Frame} (hc : checkGroupbyFreq f.freq f.freq = true) (xs : List L) {s : Span} (hs : s.Within f.n) (st : TLState L) :
    Layout.run f (.organizer (.marker ⟨f.freq, []⟩) (xs.map .label)) s st = Layout.run f (.organizer (.marks []) [.pattern (.list xs)]) s st := by
  obtain ⟨ss, e, t, k⟩ := Frame.cut_units hc hs
  rw [show Layout.run f (.organizer (.marker ⟨f.freq, []⟩) (xs.map .label)) s st = _ by unfold Layout.run; rw [e]]
  rw [show Layout.run f (.organizer (.marks []) [.pattern (.list xs)]) s st = _ by unfold Layout.run; rw [Frame.cut_whole hs]]
  simp only
  rw [Layout.runAll_label, show Layout.runAll f [Layout.pattern (.list xs)] = [Layout.run f (.pattern (.list xs))] from rfl, zipRun_one]
  show _ = applyPattern (.list xs) { s with skipLeft := 0, skipRight := 0 } st
  have hn : (s.last + 1 - s.first).toNat = (s.last - s.first).toNat + 1 := by have := hs.2.1; omega
  unfold applyPattern skiperatorTake
  simp only [show ¬ ((0 : Int) < 0) by omega, if_false, show (0 : Int).toNat = 0 from rfl, Src.take, Pattern.src]
  by_cases hx : xs = []
  · subst hx
    rw [hn]
    cases ss with
    | nil => exact t.elim
    | cons x r => rfl
  · obtain ⟨ys, src, k1, k2⟩ := zipRun_units ss t k xs xs hx st
    rw [show Cycle.start (xs.map makeCompound) = ⟨xs.map makeCompound, xs.map makeCompound⟩ from rfl, k2,
      show Cycle.start xs = ⟨xs, xs⟩ from rfl, k1]

theorem zipRunRP_units {id : Nat} : ∀ (ss : List Span) {a b : Int} (_ : Tiles a b ss) (_ : ∀ x ∈ ss, x.first = x.last) (st : TLState L) (_ : (st.heap id).saved ≠ []),
    ∃ ys src h', Src.take (b + 1 - a).toNat (.shared id) st.heap = some (ys, src, h') ∧
      zipRunRP ss id st = .ok { st with
        labels := fun i => if a ≤ i ∧ i ≤ b then (ys[(i - a).toNat]?).getD (st.labels i) else st.labels i
        heap := h' }
  | [], _, _, h, _, _, _ => h.elim
  | s :: ss, a, b, h, hx, st, hsv => by
    have h1 := h.head
    have h2 := hx s (List.mem_cons_self ..)
    have hnext : ∃ x c', (st.heap id).next = some (x, c') ∧ c'.saved = (st.heap id).saved := by
      generalize st.heap id = c at hsv ⊢
      obtain ⟨sv, rs⟩ := c
      cases rs with
      | cons x r => exact ⟨x, ⟨sv, r⟩, rfl, rfl⟩
      | nil =>
        cases sv with
        | nil => exact absurd rfl hsv
        | cons x r => exact ⟨x, ⟨x :: r, r⟩, rfl, rfl⟩
    obtain ⟨x, c', n1, n2⟩ := hnext
    have e : (b + 1 - a).toNat = (b + 1 - (a + 1)).toNat + 1 := by omega
    have hz : zipRunRP (s :: ss) id st = zipRunRP ss id { st with labels := fun i => if i = a then x else st.labels i, heap := st.heap.set id c' } := by
      rw [zipRunRP, n1]
      simp only [makeCompound]
      have : (fun i => if s.first + 1 ≤ i ∧ i ≤ s.last then false else st.mask i) = st.mask := by
        funext i; rw [if_neg (by omega)]
      rw [this, h1.1]
    rw [hz, e]
    have hset : (st.heap.set id c') id = c' := by unfold Heap.set; rw [if_pos rfl]
    rcases h.tail with ⟨rfl, t⟩ | t
    · have e0 : (b + 1 - (a + 1)).toNat = 0 := by omega
      refine ⟨[x], .shared id, st.heap.set id c', ?_, ?_⟩
      · rw [e0]
        simp only [Src.take, Src.next, n1]
      · rw [zipRunRP]
        congr 2
        funext i
        by_cases hi : i = a
        · subst hi
          rw [if_pos rfl, if_pos (by omega)]
          simp
        · rw [if_neg hi, if_neg (by omega)]
    · obtain ⟨ys, src, h', k1, k2⟩ := zipRunRP_units (id := id) ss t (fun y hy => hx y (List.mem_cons_of_mem _ hy))
        { st with labels := fun i => if i = a then x else st.labels i, heap := st.heap.set id c' } (by simp only; rw [hset, n2]; exact hsv)
      have ea : s.last + 1 = a + 1 := by omega
      rw [ea] at k1 k2
      refine ⟨x :: ys, src, h', ?_, ?_⟩
      · simp only at k1
        simp only [Src.take, Src.next, n1, k1]
      · rw [k2]
        congr 2
        funext i
        simp only
        by_cases hi : i = a
        · subst hi
          rw [if_neg (by omega), if_pos rfl, if_pos (by omega)]
          simp
        · by_cases hi' : a ≤ i ∧ i ≤ b
          · have e' : (i - a).toNat = (i - (a + 1)).toNat + 1 := by omega
            rw [if_pos (by omega), if_neg hi, if_pos hi', e', List.getElem?_cons_succ]
          · rw [if_neg (by omega), if_neg hi, if_neg hi']

/-- The same with a RememberingPattern. -/
theorem Layout.run_units_remembering {f : Frame} (hc : checkGroupbyFreq f.freq f.freq = true) (id : Nat) {s : Span} (hs : s.Within f.n) (st : TLState L)
    (hh : (st.heap id).saved = [] → (st.heap id).rest = []) :
    Layout.run f (.organizerRP (.marker ⟨f.freq, []⟩) id) s st = Layout.run f (.organizer (.marks []) [.pattern (.rp id)]) s st := by
  obtain ⟨ss, e, t, k⟩ := Frame.cut_units hc hs
  rw [show Layout.run f (.organizerRP (.marker ⟨f.freq, []⟩) id) s st = _ by unfold Layout.run; rw [e]]
  rw [show Layout.run f (.organizer (.marks []) [.pattern (.rp id)]) s st = _ by unfold Layout.run; rw [Frame.cut_whole hs]]
  simp only
  rw [show Layout.runAll f [Layout.pattern (.rp id)] = [Layout.run f (.pattern (.rp id) : Layout L)] from rfl, zipRun_one]
  show _ = applyPattern (.rp id) { s with skipLeft := 0, skipRight := 0 } st
  have hn : (s.last + 1 - s.first).toNat = (s.last - s.first).toNat + 1 := by have := hs.2.1; omega
  unfold applyPattern skiperatorTake
  simp only [show ¬ ((0 : Int) < 0) by omega, if_false, show (0 : Int).toNat = 0 from rfl, Src.take, Pattern.src]
  by_cases hx : (st.heap id).saved = []
  · have hnone : (st.heap id).next = none := by unfold Cycle.next; rw [hh hx, hx]
    rw [hn]
    cases ss with
    | nil => exact t.elim
    | cons x r =>
      rw [zipRunRP, hnone]
      simp only [Src.take, Src.next, hnone]
  · obtain ⟨ys, src, h', k1, k2⟩ := zipRunRP_units ss t k st hx
    rw [k2, k1]

theorem Layout.Shorter.run {f : Frame} {l l' : Layout L} (h : Layout.Shorter f.freq l l') :
    ∀ {s : Span}, s.Within f.n → ∀ st, Layout.run f l s st = Layout.run f l' s st := by
  induction h with
  | refl l => intros; rfl
  | trans _ _ ih1 ih2 => intro s hs st; rw [ih1 hs, ih2 hs]
  | element c pre post _ ih =>
    intro s hs st
    unfold Layout.run
    cases hcut : f.cutSpan c s with
    | error e => rfl
    | ok ss =>
      have hcut' : f.cut s c = .ok ss := by rw [← Frame.cutSpan_eq _ hs.1 hs.2.1 hs.2.2]; exact hcut
      have hin := (Frame.cut_within hs hcut').2
      refine zipRun_on (P := fun x => x.Within f.n) ss hin ?_ ?_ st <;>
      · show StepsOn _ (Layout.runAll f _) (Layout.runAll f _)
        rw [Layout.runAll_append, Layout.runAll_append]
        exact (StepsOn.refl _ _).append (.cons (fun x hx st => ih hx st) (StepsOn.refl _ _))
  | first l es =>
    intro s hs st
    unfold Layout.run
    rw [Frame.cut_whole hs]
    exact (zipRun_one _ st).trans (zipRun_one _ st).symm
  | whole es hl =>
    intro s hs st
    rw [show Layout.run f (.organizer (.marks []) (_ :: es)) s st = _ by unfold Layout.run; rw [Frame.cut_whole hs]]
    show zipRun _ (Cycle.start (Layout.run f _ :: Layout.runAll f es)) st = _
    rw [zipRun_one]
    exact Layout.run_skips f hs 0 0 (.inl hl) st
  | marks ts ts' l => intro s hs st; exact Layout.run_marks_twofold ts ts' l hs st
  | shorter hq hg hu hc l => intro s hs st; exact Layout.run_periods_twofold hc hq hg hu l hs st
  | units hc xs => intro s hs st; exact Layout.run_units hc xs hs st
  | again hq pre post l es => intro s hs st; exact Layout.run_again hq (fun o => ⟨o, rfl⟩) (.inl rfl) pre post es (.inr rfl) hs st
  | longer hq hg hc pre post es hl => intro s hs st; exact Layout.run_again hq hg (.inr hc) pre post es (.inl hl) hs st

end TB
