import Verif.Spec.Nested
import Verif.Lemmas.Reading2
import Verif.Lemmas.Marks
import Verif.Lemmas.MarkerAt
/-! A part of a frame is divided and read as a frame of its own. -/
namespace TB
variable {L : Type}

/-- The base units of a span as a frame of their own. -/
def Frame.part (f : Frame) (x : Span) : Frame := { freq := f.freq, o0 := f.ord x.first, n := (x.last - x.first + 1).toNat }

def Span.moved (d : Int) (s : Span) : Span := { s with first := s.first + d, last := s.last + d }
def Piece.moved (d : Int) (p : Piece L) : Piece L := { p with first := p.first + d, last := p.last + d }

theorem Frame.part_ord (f : Frame) (x : Span) (i : Int) : (f.part x).ord i = f.ord (i + x.first) := by
  unfold Frame.part Frame.ord
  simp only
  rw [Int.mul_add]; omega

theorem Frame.part_unitStart (f : Frame) (x : Span) (i : Int) : (f.part x).unitStart i = f.unitStart (i + x.first) := by
  unfold Frame.unitStart; rw [Frame.part_ord]; rfl

theorem Frame.part_unitEnd (f : Frame) (x : Span) (i : Int) : (f.part x).unitEnd i = f.unitEnd (i + x.first) := by
  unfold Frame.unitEnd; rw [Frame.part_ord]; rfl

theorem Frame.unitStart_inj {f : Frame} {i j : Int} (h : f.unitStart i = f.unitStart j) : i = j := by
  have h1 := Frame.unitStart_lt_iff (f := f) (i := i) (j := j)
  have h2 := Frame.unitStart_lt_iff (f := f) (i := j) (j := i)
  omega

theorem Frame.fallsIn_unit (f : Frame) (i j : Int) : f.fallsIn i (f.unitStart j) = decide (i = j) := by
  unfold Frame.fallsIn
  rw [decide_eq_decide]
  have h1 := Frame.unitStart_le_iff (f := f) (i := i) (j := j)
  have h2 := Frame.unitStart_le_iff (f := f) (i := i + 1) (j := j)
  have h3 := Frame.unitEnd_eq f i
  have h4 := nsSec_pos
  constructor
  · rintro ⟨g1, g2⟩
    split at g2
    · by_cases hij : i = j
      · exact hij
      · exfalso
        have h5 := h2.2 (by omega)
        have h6 := f.unitStart_add_sec i
        omega
    · omega
  · rintro rfl
    refine ⟨Int.le_refl _, ?_⟩
    split
    · omega
    · have := Frame.unitStart_lt (f := f) (i := i) (j := i + 1) (by omega)
      omega

theorem groups_ne (p : Int → Bool) : ∀ (l : List Int), ∀ g ∈ groups p l, g ≠ []
  | [], g, h => by cases h
  | i :: is, g, h => by
    have ih := groups_ne p is
    unfold groups at h
    cases hg : groups p is with
    | nil => rw [hg] at h; simp only [List.mem_singleton] at h; subst h; simp
    | cons y ys =>
      rw [hg] at h ih
      simp only at h
      split at h
      · rcases List.mem_cons.1 h with rfl | h
        · simp
        · exact ih g h
      · rcases List.mem_cons.1 h with rfl | h
        · simp
        · exact ih g (List.mem_cons_of_mem _ h)

theorem headD_map {d : Int} {g : List Int} (h : g ≠ []) : (g.map (· + d)).headD 0 = g.headD 0 + d := by
  cases g with
  | nil => exact absurd rfl h
  | cons x xs => rfl

theorem getLastD_map {d : Int} {g : List Int} (h : g ≠ []) : (g.map (· + d)).getLastD 0 = g.getLastD 0 + d := by
  rw [List.getLastD_eq_getLast?, List.getLastD_eq_getLast?, List.getLast?_map, List.getLast?_eq_some_getLast h]
  rfl

theorem groups_map (p q : Int → Bool) (d : Int) (hpq : ∀ i, p (i + d) = q i) : ∀ (l : List Int),
    groups p (l.map (· + d)) = (groups q l).map (fun g => g.map (· + d))
  | [] => rfl
  | i :: is => by
    have ih := groups_map p q d hpq is
    have hn := groups_ne q is
    rw [List.map_cons]
    unfold groups
    rw [ih]
    cases hg : groups q is with
    | nil => rfl
    | cons y ys =>
      have hy : y ≠ [] := hn y (by rw [hg]; simp)
      simp only [List.map_cons, headD_map hy, hpq]
      split <;> rfl

theorem intRange_add (a b d : Int) : intRange (a + d) (b + d) = (intRange a b).map (· + d) := by
  unfold intRange
  rw [show b + d - (a + d) = b - a by omega, List.map_map]
  apply List.map_congr_left
  intro i _
  simp only [Function.comp]
  omega

theorem Frame.divide_part {f : Frame} (x : Span) {s : Span} {marks : List Time} (h : f.AtUnits marks) :
    f.divide (s.moved x.first) marks = ((f.part x).divide s marks).map (Span.moved x.first) := by
  unfold Frame.divide Span.moved
  simp only
  rw [show s.last + x.first + 1 = (s.last + 1) + x.first by omega, intRange_add,
    groups_map _ (fun i => marks.any ((f.part x).fallsIn i)) x.first (by
      intro i
      rw [Bool.eq_iff_iff, List.any_eq_true, List.any_eq_true]
      constructor
      · rintro ⟨t, t1, t2⟩
        refine ⟨t, t1, ?_⟩
        obtain ⟨j, rfl⟩ := h t t1
        rw [Frame.fallsIn_unit, decide_eq_true_eq] at t2
        rw [show f.unitStart j = (f.part x).unitStart (j - x.first) by rw [Frame.part_unitStart]; congr 1; omega, Frame.fallsIn_unit,
          decide_eq_true_eq]
        omega
      · rintro ⟨t, t1, t2⟩
        refine ⟨t, t1, ?_⟩
        obtain ⟨j, rfl⟩ := h t t1
        rw [show f.unitStart j = (f.part x).unitStart (j - x.first) by rw [Frame.part_unitStart]; congr 1; omega, Frame.fallsIn_unit,
          decide_eq_true_eq] at t2
        rw [Frame.fallsIn_unit, decide_eq_true_eq]
        omega)]
  rw [List.map_map, List.map_map]
  apply List.map_congr_left
  intro g hg
  have hne := groups_ne _ _ g hg
  simp only [Function.comp]
  rw [headD_map hne, getLastD_map hne]

theorem withSkips_moved (d l r : Int) (ss : List Span) : withSkips l r (ss.map (Span.moved d)) = (withSkips l r ss).map (Span.moved d) := by
  unfold withSkips
  apply List.ext_getElem?
  intro k
  rw [List.getElem?_mapIdx, List.getElem?_map, List.getElem?_map, List.getElem?_mapIdx, List.length_map]
  cases ss[k]? <;> rfl

theorem Frame.part_unitsBefore (f : Frame) (x : Span) (i : Int) (t : Time) : f.unitsBefore (i + x.first) t = (f.part x).unitsBefore i t := by
  unfold Frame.unitsBefore
  rw [Frame.part_ord]; rfl

theorem Frame.part_unitsAfter (f : Frame) (x : Span) (i : Int) (t : Time) : f.unitsAfter (i + x.first) t = (f.part x).unitsAfter i t := by
  unfold Frame.unitsAfter
  rw [Frame.part_ord]; rfl

theorem Freq.periodsOver_pos {g : Freq} {a b : Time} (h : a ≤ b) : 0 < (g.periodsOver a b).n := by
  unfold Freq.periodsOver
  have := g.base.ordOf_mono h
  have : 0 ≤ (g.base.ordOf b - g.base.ordOf a) / (g.mult : Int) := Int.ediv_nonneg (by omega) (by have := g.mult_pos; omega)
  simp only
  omega

/-- Periods of a marker without `at` start with base units. -/
theorem Frame.period_unit {f : Frame} {each : Freq} (hc : checkGroupbyFreq f.freq each = true) (i : Int) (b : Time) (k : Int) :
    ∃ j, (each.periodsOver (f.unitStart i) b).unitStart k = f.unitStart j := by
  rcases checkGroupby_aligned hc with ⟨h1, h2⟩ | ⟨h1, h2⟩
  · obtain ⟨o, ho⟩ := h2 ((each.periodsOver (f.unitStart i) b).ord k)
    refine ⟨o - f.o0, ?_⟩
    show each.base.startOf _ = f.freq.base.startOf _
    rw [ho]
    unfold Frame.ord
    rw [h1]
    congr 1
    omega
  · obtain ⟨q, hq⟩ := h2
    refine ⟨i + q * k, ?_⟩
    show each.base.startOf _ = f.freq.base.startOf _
    rw [h1]
    congr 1
    unfold Frame.ord Freq.periodsOver
    simp only
    rw [← h1, show f.freq.base.ordOf (f.unitStart i) = f.ord i from Base.ordOf_startOf _ _]
    unfold Frame.ord
    rw [hq]
    push_cast
    rw [Int.mul_add, Int.mul_assoc, Int.add_assoc]

theorem Frame.atUnits_periods {f : Frame} {each : Freq} (hc : checkGroupbyFreq f.freq each = true) (i : Int) (b : Time) (n : Int) :
    f.AtUnits ((intRange 0 n).map (each.periodsOver (f.unitStart i) b).unitStart) := by
  intro t ht
  obtain ⟨k, _, rfl⟩ := List.mem_map.1 ht
  exact Frame.period_unit hc i b k

theorem mapM_flatten_mem {α β : Type} {F : α → Except Err (List β)} : ∀ {l : List α} {rs : List (List β)}, l.mapM F = .ok rs →
    ∀ t ∈ rs.flatten, ∃ x ∈ l, ∃ ts, F x = .ok ts ∧ t ∈ ts
  | [], rs, h, t, ht => by cases h; simp at ht
  | x :: l, rs, h, t, ht => by
    rw [List.mapM_cons] at h
    cases hx : F x with
    | error e => rw [hx] at h; cases h
    | ok ts =>
      rw [hx] at h
      cases hl : l.mapM F with
      | error e => rw [hl] at h; cases h
      | ok rs' =>
        rw [hl] at h
        cases h
        rw [List.flatten_cons, List.mem_append] at ht
        rcases ht with ht | ht
        · exact ⟨x, by simp, ts, hx, ht⟩
        · obtain ⟨y, y1, y2⟩ := mapM_flatten_mem hl t ht
          exact ⟨y, by simp [y1], y2⟩

/-- A part of a frame is divided as a frame of its own. -/
theorem Frame.cut_part {f : Frame} (x : Span) {s : Span} (hs : s.first ≤ s.last) {c : Cut} (h : c.Level f) :
    f.cut (s.moved x.first) c = ((f.part x).cut s c).map (fun ss => ss.map (Span.moved x.first)) := by
  cases c with
  | marks ts =>
    show Except.ok _ = Except.ok _
    rw [Frame.divide_part x h]
  | marker m =>
    unfold Frame.cut
    simp only
    have e1 : f.unitStart (s.moved x.first).first = (f.part x).unitStart s.first := (Frame.part_unitStart _ _ _).symm
    have e2 : f.unitEnd (s.moved x.first).last = (f.part x).unitEnd s.last := (Frame.part_unitEnd _ _ _).symm
    have e3 : (f.part x).freq = f.freq := rfl
    rw [e1, e2, e3]
    split
    · rfl
    · rename_i hc
      rw [Bool.not_eq_false] at hc
      have b1 : ∀ t, f.unitsBefore (s.moved x.first).first t = (f.part x).unitsBefore s.first t := Frame.part_unitsBefore f x s.first
      have b2 : ∀ t, f.unitsAfter (s.moved x.first).last t = (f.part x).unitsAfter s.last t := Frame.part_unitsAfter f x s.last
      split
      · rw [b1, b2, Frame.divide_part x (by rw [← e1]; exact Frame.atUnits_periods hc _ _ _), withSkips_moved]
        rfl
      · have hle : (f.part x).unitStart s.first ≤ (f.part x).unitEnd s.last := by
          have := Frame.unitStart_le_iff (f := f.part x).2 hs
          have := Frame.unitStart_lt (f := f.part x) (i := s.last) (j := s.last + 1) (by omega)
          rw [Frame.unitEnd_eq]
          omega
        have hd := getFreqDelta_pos m.each
        cases hp : m.deliver f.freq (m.each.periodsOver ((f.part x).unitStart s.first - getFreqDelta m.each) ((f.part x).unitEnd s.last + getFreqDelta m.each)) with
        | error e => rfl
        | ok pts =>
          have hpts : f.AtUnits pts := by
            unfold Marker.deliver at hp
            cases hq : m.ats.mapM (fun (how : Frame → Freq → Except Err (List Time)) => how (m.each.periodsOver ((f.part x).unitStart s.first - getFreqDelta m.each) ((f.part x).unitEnd s.last + getFreqDelta m.each)) f.freq) with
            | error e => rw [hq] at hp; cases hp
            | ok rs =>
              rw [hq] at hp
              cases hp
              intro t ht
              obtain ⟨how, g1, ts, g2, g3⟩ := mapM_flatten_mem hq t ht
              exact h how g1 _ rfl (Freq.periodsOver_pos (by omega)) ts g2 t g3
          cases pts with
          | nil => rfl
          | cons p ps =>
            simp only [b1, b2]
            rw [Frame.divide_part x hpts, withSkips_moved]
            rfl

theorem Layout.readAll_eq (f : Frame) (dl : L) : ∀ ls : List (Layout L), Layout.readAll f dl ls = ls.map (Layout.read f dl)
  | [] => by simp [Layout.readAll]
  | l :: ls => by simp [Layout.readAll, Layout.readAll_eq f dl ls]

theorem mem_of_cyclic {α : Type} {xs : List α} {n : Nat} {x : α} (h : cyclic xs n = some x) : x ∈ xs := List.mem_of_getElem? h

/-- What was read, moved. -/
abbrev movedRead (d : Int) (r : Except Err (List (Piece L) × Memory L)) : Except Err (List (Piece L) × Memory L) :=
  r.map (fun x => (x.1.map (Piece.moved d), x.2))

theorem readInTurns_moved {d : Int} {P : Span → Prop} {R R' : Layout L → Reader L} {elems : List (Layout L)}
    (hR : ∀ e ∈ elems, ∀ s m, P s → R e (s.moved d) m = movedRead d (R' e s m)) : ∀ (ss : List Span) (n : Nat) (m : Memory L), (∀ s ∈ ss, P s) →
    readInTurns (elems.map R) n (ss.map (Span.moved d)) m = movedRead d (readInTurns (elems.map R') n ss m)
  | [], n, m, _ => rfl
  | s :: ss, n, m, hP => by
    rw [List.map_cons]
    unfold readInTurns
    rw [cyclic_map, cyclic_map]
    cases hc : cyclic elems n with
    | none => rfl
    | some e =>
      simp only [Option.map_some]
      rw [hR e (mem_of_cyclic hc) s m (hP s (by simp))]
      cases hr : R' e s m with
      | error er => rfl
      | ok r =>
        simp only [movedRead, Except.map]
        rw [readInTurns_moved hR ss (n + 1) r.2 (fun x hx => hP x (by simp [hx]))]
        cases readInTurns (elems.map R') (n + 1) ss r.2 with
        | error er => rfl
        | ok q => simp [movedRead, Except.map]

theorem unitPieces_moved (dl : L) (xs : List L) (p : Nat) (s : Span) (d : Int) :
    unitPieces dl xs p (s.moved d) = (unitPieces dl xs p s).map (Piece.moved d) := by
  unfold unitPieces Span.moved Piece.moved
  simp only [List.map_map]
  rw [show s.last + d + 1 - (s.first + d) = s.last + 1 - s.first by omega]
  apply List.map_congr_left
  intro i _
  simp only [Function.comp]
  rw [show s.first + d + (i : Int) = s.first + i + d by omega]

theorem spanPieces_moved (dl : L) (xs : List L) (p : Nat) (ss : List Span) (d : Int) :
    spanPieces dl xs p (ss.map (Span.moved d)) = (spanPieces dl xs p ss).map (Piece.moved d) := by
  unfold spanPieces
  rw [List.zipIdx_map, List.map_map, List.map_map]
  apply List.map_congr_left
  intro i _
  rfl

/-- A span of the part. -/
def Span.Within (n : Nat) (s : Span) : Prop := 0 ≤ s.first ∧ s.first ≤ s.last ∧ s.last < n

theorem Frame.cut_within {f : Frame} {s : Span} {c : Cut} {ss : List Span} (hs : s.Within f.n) (h : f.cut s c = .ok ss) :
    Tiles s.first s.last ss ∧ ∀ y ∈ ss, y.Within f.n := by
  rw [← Frame.cutSpan_eq c hs.1 hs.2.1 hs.2.2] at h
  have ht := (Frame.cutSpan_tiles h).2.2
  refine ⟨ht, fun y hy => ?_⟩
  have := ht.mem hy
  have := hs.1
  have := hs.2.2
  exact ⟨by omega, by omega, by omega⟩

mutual
theorem Layout.read_part {f : Frame} (dl : L) (x : Span) : ∀ (l : Layout L), l.Level f → ∀ (s : Span) (m : Memory L), s.Within (f.part x).n →
    Layout.read f dl l (s.moved x.first) m = movedRead x.first (Layout.read (f.part x) dl l s m)
  | .label v, _, s, m, _ => by
    unfold Layout.read; rfl
  | .pattern (.list xs), _, s, m, _ => by
    unfold Layout.read
    simp only [unitPieces_moved]
    show (if s.skipLeft < 0 then _ else _) = _
    split
    · rfl
    · rfl
  | .pattern (.rp id), _, s, m, _ => by
    unfold Layout.read
    simp only [unitPieces_moved]
    show (if s.skipLeft < 0 then _ else _) = _
    have : (s.moved x.first).last + 1 - (s.moved x.first).first = s.last + 1 - s.first := by unfold Span.moved; simp only; omega
    rw [this]
    split
    · rfl
    · rfl
  | .organizer c es, hl, s, m, hs => by
    unfold Layout.Level at hl
    unfold Layout.read
    rw [Frame.cut_part x hs.2.1 hl.1]
    cases hc : (f.part x).cut s c with
    | error e => rfl
    | ok ss =>
      simp only [Except.map]
      split
      · rw [unitPieces_moved]; rfl
      · rw [Layout.readAll_eq, Layout.readAll_eq]
        exact readInTurns_moved (P := Span.Within (f.part x).n) (fun e he s m hs => Layout.readAll_part dl x es hl.2 e he s m hs) ss 0 m
          (Frame.cut_within hs hc).2
  | .organizerRP c id, hl, s, m, hs => by
    unfold Layout.Level at hl
    unfold Layout.read
    rw [Frame.cut_part x hs.2.1 hl]
    cases hc : (f.part x).cut s c with
    | error e => rfl
    | ok ss =>
      simp only [Except.map]
      split
      · rw [unitPieces_moved]; rfl
      · rw [spanPieces_moved, List.length_map]; rfl

theorem Layout.readAll_part {f : Frame} (dl : L) (x : Span) : ∀ (ls : List (Layout L)), Layout.LevelAll f ls → ∀ e ∈ ls, ∀ (s : Span) (m : Memory L),
    s.Within (f.part x).n → Layout.read f dl e (s.moved x.first) m = movedRead x.first (Layout.read (f.part x) dl e s m)
  | [], _, e, he, _, _, _ => by cases he
  | l :: ls, hl, e, he, s, m, hs => by
    unfold Layout.LevelAll at hl
    rcases List.mem_cons.1 he with he' | he
    · rw [he']
      exact Layout.read_part dl x l hl.1 s m hs
    · exact Layout.readAll_part dl x ls hl.2 e he s m hs
end

theorem Frame.part_new (f : Frame) {x : Span} (hx : x.first ≤ x.last) :
    Frame.new f.freq (f.unitStart x.first) (f.unitEnd x.last) = .ok (f.part x) := by
  have e1 : f.freq.base.ordOf (f.unitStart x.first) = f.ord x.first := Base.ordOf_startOf _ _
  have e2 : f.freq.base.ordOf (f.unitEnd x.last) = f.ord (x.last + 1) - 1 := by
    have g1 := Frame.unitEnd_eq f x.last
    have g2 := (f.freq.base.startOf_lt_iff _ _).2 (show f.ord (x.last + 1) - 1 < f.ord (x.last + 1) by omega)
    rw [Base.ordOf_eq_iff, Int.sub_add_cancel]
    unfold Frame.unitStart at g1
    omega
  have hm := f.freq.mult_pos
  rw [Frame.new_ok_iff, e1, e2]
  have e3 : f.ord (x.last + 1) - 1 - f.ord x.first = (f.freq.mult - 1 : Int) + f.freq.mult * (x.last - x.first) := by
    unfold Frame.ord
    rw [Int.mul_sub, Int.mul_add]; omega
  constructor
  · have : 0 ≤ (f.freq.mult : Int) * (x.last - x.first) := Int.mul_nonneg (by omega) (by omega)
    omega
  · rw [e3, Int.add_mul_ediv_left _ _ (by omega), Int.ediv_eq_zero_of_lt (by omega) (by omega), Int.zero_add]
    rfl

theorem Frame.cut_nil {f : Frame} {s : Span} (hs : s.Within f.n) : f.cut s (.marks []) = .ok [{ first := s.first, last := s.last }] := by
  obtain ⟨ss, h1⟩ := Frame.createSubspans_exists (f := f) (s := s) [] hs.1 hs.2.1 hs.2.2
  have h2 := h1
  rw [Frame.createSubspans_ok_iff] at h2
  obtain ⟨_, _, _, h3⟩ := h2
  rw [← Frame.cutSpan_eq _ hs.1 hs.2.1 hs.2.2]
  simp only [Frame.cutSpan, Frame.partitionAtMarks]
  rw [h1, h3]
  rfl

theorem Frame.cut_skip {f : Frame} {s : Span} {c : Cut} {ss : List Span} (h : f.cut s c = .ok ss) {k : Nat} (hk : k ≠ 0) {y : Span}
    (hy : ss[k]? = some y) : y.skipLeft = 0 := by
  have key : ∀ l r us, (withSkips l r us)[k]? = some y → y.skipLeft = 0 := by
    intro l r us h
    unfold withSkips at h
    rw [List.getElem?_mapIdx, Option.map_eq_some_iff] at h
    obtain ⟨z, _, rfl⟩ := h
    simp [hk]
  cases c with
  | marks ts =>
    cases h
    exact (divide_skips f s ts y (List.mem_of_getElem? hy)).1
  | marker m =>
    unfold Frame.cut at h
    simp only at h
    split at h
    · cases h
    · split at h
      · cases h
        exact key _ _ _ hy
      · split at h
        · cases h
        · cases h
          cases k with
          | zero => exact absurd rfl hk
          | succ k => simp at hy
        · cases h
          exact key _ _ _ hy

theorem Frame.cut_bounds (f : Frame) {s s' : Span} (h1 : s.first = s'.first) (h2 : s.last = s'.last) (c : Cut) : f.cut s c = f.cut s' c := by
  cases c with
  | marks ts => unfold Frame.cut Frame.divide; rw [h1, h2]
  | marker m =>
    unfold Frame.cut Frame.divide
    simp only [h1, h2]

theorem Layout.read_whole_one {f : Frame} (dl : L) {s : Span} (hs : s.Within f.n) (e : Layout L) (m : Memory L) :
    Layout.read f dl (.organizer (.marks []) [e]) s m = Layout.read f dl e { first := s.first, last := s.last } m := by
  conv => lhs; unfold Layout.read
  simp only [Frame.cut_nil hs, Layout.readAll, List.isEmpty_cons, Bool.false_eq_true, if_false, readInTurns, cyclic, List.length_cons, List.length_nil,
    Nat.zero_mod, List.getElem?_cons_zero]
  cases Layout.read f dl e { first := s.first, last := s.last } m with
  | error e => rfl
  | ok r => simp

theorem Layout.Level.whole {f : Frame} {e : Layout L} (h : e.Level f) : e.whole.Level f := by
  cases e with
  | pattern p => unfold Layout.whole Layout.Level Layout.LevelAll Layout.LevelAll Layout.Level; exact ⟨fun t ht => (by cases ht), trivial, trivial⟩
  | label l => unfold Layout.whole Layout.Level Layout.LevelAll Layout.LevelAll Layout.Level; exact ⟨fun t ht => (by cases ht), trivial, trivial⟩
  | organizer c es => exact h
  | organizerRP c id => exact h

/-- An element of `structure` is applied to its span as to a whole frame. -/
theorem Layout.read_span {f : Frame} (dl : L) {x : Span} (hx : x.Within f.n) {e : Layout L} (he : e.Level f)
    (hp : ∀ p, e = .pattern p → x.skipLeft = 0) (m : Memory L) :
    Layout.read f dl e x m = movedRead x.first (Layout.read (f.part x) dl e.whole { first := 0, last := ((f.part x).n : Int) - 1 } m) := by
  have hn : ((f.part x).n : Int) = x.last - x.first + 1 := by
    unfold Frame.part
    have := hx.2.1
    simp only; omega
  have hw : ({ first := 0, last := ((f.part x).n : Int) - 1 } : Span).Within (f.part x).n := by
    have := hx.2.1
    refine ⟨Int.le_refl _, ?_, ?_⟩ <;> simp only <;> omega
  rw [← Layout.read_part dl x e.whole he.whole _ m hw]
  have e1 : (({ first := 0, last := ((f.part x).n : Int) - 1 } : Span).moved x.first).first = x.first := by unfold Span.moved; simp
  have e2 : (({ first := 0, last := ((f.part x).n : Int) - 1 } : Span).moved x.first).last = x.last := by unfold Span.moved; simp only; omega
  have hw' : (({ first := 0, last := ((f.part x).n : Int) - 1 } : Span).moved x.first).Within f.n := by
    unfold Span.Within; rw [e1, e2]; exact hx
  cases e with
  | label l =>
    unfold Layout.whole
    rw [Layout.read_whole_one dl hw', e1, e2]
    unfold Layout.read; rfl
  | pattern p =>
    unfold Layout.whole
    rw [Layout.read_whole_one dl hw', e1, e2]
    have := hp p rfl
    obtain ⟨x1, x2, x3, x4⟩ := x
    simp only at this
    subst this
    cases p <;> (unfold Layout.read; rfl)
  | organizer c es =>
    unfold Layout.whole Layout.read
    rw [Frame.cut_bounds f e1 e2]
    unfold unitPieces
    rw [e1, e2]
  | organizerRP c id =>
    unfold Layout.whole Layout.read
    rw [Frame.cut_bounds f e1 e2]
    unfold unitPieces
    rw [e1, e2]

theorem amendPieces_nil (f : Frame) (ps : List (Piece L)) : amendPieces f [] ps = .ok ps := by
  unfold amendPieces Piece.hits
  rw [if_neg (by simp)]
  simp

/-- What can be seen of a piece. -/
def Piece.seen (f : Frame) (p : Piece L) : Seen L := ⟨f.unitStart p.first, f.unitEnd p.last, p.last - p.first + 1, p.label⟩

theorem Piece.moved_seen (f : Frame) (x : Span) (p : Piece L) : (p.moved x.first).seen f = p.seen (f.part x) := by
  unfold Piece.seen Piece.moved
  simp only
  rw [Frame.part_unitStart, Frame.part_unitEnd]
  congr 1
  omega

theorem Timeboard.ConsistsOf.lists {tb : Timeboard L} {f : Frame} {ps : List (Piece L)} (h : tb.ConsistsOf f ps) : tb.Lists (ps.map (Piece.seen f)) := by
  obtain ⟨_, h1, h2⟩ := h
  refine ⟨by rw [h1, List.length_map], ?_⟩
  intro k x hk
  rw [List.getElem?_map, Option.map_eq_some_iff] at hk
  obtain ⟨p, hp, rfl⟩ := hk
  exact h2 k p hp

theorem Args.ofPart_read (a : Args L) {f : Frame} {x : Span} (hx : x.first ≤ x.last) (e : Layout L) (m : Memory L) (hf : f.freq = a.freq)
    (ha : a.amendments = []) (hw : a.worktimeSource = "duration" ∨ a.worktimeSource = "labels") :
    (a.ofPart f x e).read m =
      (Layout.read (f.part x) a.defaultLabel e.whole { first := 0, last := ((f.part x).n : Int) - 1 } m).map (fun r => (f.part x, r.1, r.2)) := by
  have h1 : (a.ofPart f x e).read m = (a.ofPart f x e).readLayout e.whole m := by
    unfold Args.read
    cases e <;> rfl
  rw [h1]
  unfold Args.readLayout
  rw [if_neg (by show ¬ (a.worktimeSource ≠ "duration" ∧ a.worktimeSource ≠ "labels"); rintro ⟨g1, g2⟩; rcases hw with g | g <;> contradiction), Args.frame_eq]
  have : Frame.new (a.ofPart f x e).freq (a.ofPart f x e).start (a.ofPart f x e).stop = .ok (f.part x) := by
    rw [← Frame.part_new f hx, hf]; rfl
  rw [this]
  simp only
  show (match Layout.read (f.part x) a.defaultLabel e.whole _ m with
    | .error e => _
    | .ok (ps, m') => _) = _
  cases Layout.read (f.part x) a.defaultLabel e.whole { first := 0, last := ((f.part x).n : Int) - 1 } m with
  | error er => rfl
  | ok r =>
    simp only
    rw [show (a.ofPart f x e).amendments = [] from ha, amendPieces_nil]
    rfl

theorem buildParts_reads (a : Args L) {f : Frame} {elems : List (Layout L)} (hf : f.freq = a.freq) (ha : a.amendments = [])
    (hw : a.worktimeSource = "duration" ∨ a.worktimeSource = "labels") (hl : ∀ e ∈ elems, e.Level f) (hne : elems ≠ []) :
    ∀ (ss : List Span) (n : Nat) (heap : Heap L) (m : Memory L), heap.Shows m → (∀ x ∈ ss, x.Within f.n) →
    (∀ k x p, ss[k]? = some x → cyclic elems (n + k) = some (.pattern p) → x.skipLeft = 0) →
    match readInTurns (elems.map (Layout.read f a.defaultLabel)) n ss m with
    | .error e => buildParts a f elems n ss heap = .error e
    | .ok (ps, m') => ∃ tbs heap', ∃ wss : List (List (Seen L)), buildParts a f elems n ss heap = .ok (tbs, heap') ∧ heap'.Shows m' ∧ tbs.length = ss.length ∧
        wss.length = ss.length ∧ ps.map (Piece.seen f) = wss.flatten ∧
        ∀ (k : Nat) tb ws, tbs[k]? = some tb → wss[k]? = some ws → tb.Lists ws
  | [], n, heap, m, hm, _, _ => by
    refine ⟨[], heap, [], rfl, hm, rfl, rfl, rfl, ?_⟩
    intro k tb ws h; simp at h
  | x :: ss, n, heap, m, hm, hs, hp => by
    obtain ⟨e, hc⟩ := cyclic_some hne n
    unfold readInTurns buildParts
    rw [cyclic_map, hc]
    simp only [Option.map_some]
    have hx := hs x (by simp)
    rw [Layout.read_span a.defaultLabel hx (hl e (mem_of_cyclic hc)) (fun p h => hp 0 x p rfl (by rw [Nat.add_zero, hc, h])) m]
    have hn := Timeboard.new_reads (a.ofPart f x e) heap m hm
    rw [Args.ofPart_read a hx.2.1 e m hf ha hw] at hn
    cases hr : Layout.read (f.part x) a.defaultLabel e.whole { first := 0, last := ((f.part x).n : Int) - 1 } m with
    | error er =>
      rw [hr] at hn
      simp only [Except.map] at hn ⊢
      rw [hn]
    | ok r =>
      obtain ⟨ps, m1⟩ := r
      rw [hr] at hn
      obtain ⟨tb, heap1, hn1, hn2, hn3⟩ := hn
      simp only [movedRead, Except.map]
      rw [hn1]
      simp only
      have ih := buildParts_reads a hf ha hw hl hne ss (n + 1) heap1 m1 hn2 (fun y hy => hs y (by simp [hy]))
        (fun k y p h1 h2 => hp (k + 1) y p (by rw [List.getElem?_cons_succ]; exact h1) (by rw [← h2]; congr 1; omega))
      cases hq : readInTurns (elems.map (Layout.read f a.defaultLabel)) (n + 1) ss m1 with
      | error er =>
        rw [hq] at ih
        simp only at ih ⊢
        rw [ih]
      | ok q =>
        obtain ⟨qs, m2⟩ := q
        rw [hq] at ih
        obtain ⟨tbs, heap2, wss, i1, i2, i3, i4, i5, i6⟩ := ih
        simp only
        rw [i1]
        refine ⟨tb :: tbs, heap2, ps.map (Piece.seen (f.part x)) :: wss, rfl, i2, by simp [i3], by simp [i4], ?_, ?_⟩
        · rw [List.map_append, i5, List.flatten_cons, List.map_map]
          congr 1
          apply List.map_congr_left
          intro p _
          exact Piece.moved_seen f x p
        · intro k tb' ws h1 h2
          cases k with
          | zero =>
            rw [List.getElem?_cons_zero] at h1 h2
            cases h1; cases h2
            exact hn3.lists
          | succ k =>
            rw [List.getElem?_cons_succ] at h1 h2
            exact i6 k tb' ws h1 h2

theorem buildParts_get {a : Args L} {f : Frame} {elems : List (Layout L)} (hne : elems ≠ []) : ∀ {ss : List Span} {n : Nat} {heap heap' : Heap L}
    {tbs : List (Timeboard L)}, buildParts a f elems n ss heap = .ok (tbs, heap') → tbs.length = ss.length ∧
    ∀ {k : Nat} {x : Span} {tb : Timeboard L}, ss[k]? = some x → tbs[k]? = some tb →
      ∃ e h1 h2, cyclic elems (n + k) = some e ∧ Timeboard.new (a.ofPart f x e) h1 = .ok (tb, h2)
  | [], n, heap, heap', tbs, h => by
    cases h
    exact ⟨rfl, by intro k x tb h; simp at h⟩
  | y :: ss, n, heap, heap', tbs, h => by
    unfold buildParts at h
    obtain ⟨e, hc⟩ := cyclic_some hne n
    rw [hc] at h
    simp only at h
    cases hn : Timeboard.new (a.ofPart f y e) heap with
    | error er => rw [hn] at h; cases h
    | ok r =>
      obtain ⟨tb0, h1⟩ := r
      rw [hn] at h
      simp only at h
      cases hb : buildParts a f elems (n + 1) ss h1 with
      | error er => rw [hb] at h; cases h
      | ok q =>
        obtain ⟨tbs', h2⟩ := q
        rw [hb] at h
        cases h
        obtain ⟨i1, i2⟩ := buildParts_get hne hb
        refine ⟨by simp [i1], ?_⟩
        intro k x tb hx ht
        cases k with
        | zero =>
          rw [List.getElem?_cons_zero] at hx ht
          cases hx; cases ht
          exact ⟨e, heap, h1, hc, hn⟩
        | succ k =>
          rw [List.getElem?_cons_succ] at hx ht
          obtain ⟨e', g1, g2, g3, g4⟩ := i2 hx ht
          exact ⟨e', g1, g2, by rw [← g3]; congr 1; omega, g4⟩

/-- The workshift found at a time within one of those listed. -/
theorem Timeboard.Lists.found {tb : Timeboard L} (hr : tb.Reachable) {ws : List (Seen L)} (h : tb.Lists ws) {x : Seen L} (hx : x ∈ ws) {t : Time}
    (h1 : x.start ≤ t) (h2 : t ≤ x.stop) : ∃ w, tb.getWorkshift t = .ok w ∧ w.Looks tb x := by
  obtain ⟨k, hk⟩ := List.mem_iff_getElem?.1 hx
  obtain ⟨w, w1, w2⟩ := h.2 k x hk
  have hlt : k < ws.length := by
    rcases Nat.lt_or_ge k ws.length with h' | h'
    · exact h'
    · rw [List.getElem?_eq_none h'] at hk; cases hk
  have hl : (k : Int) < tb.timeline.len := by rw [h.1]; omega
  have hv := hr.valid
  obtain ⟨w', hw', _, _, _, g1, g2, _, _⟩ := Workshift.exists_of_range hv none (by omega : (0 : Int) ≤ k) hl
  cases Workshift.ext_new w1 hw'
  have q1 := w2.1
  have q2 := w2.2.1
  rw [g1] at q1
  rw [g2] at q2
  simp only [Except.ok.injEq] at q1 q2
  have hp : tb.timeline.wsPosition t = .ok (k : Int) := (hv.wf.wsPosition_ok_iff t k).2 ⟨by omega, hl, by omega, by omega⟩
  exact ⟨w, by rw [hv.getWorkshift_of_within hp]; exact w1, w2⟩

/-- Every workshift found is one of those listed. -/
theorem Timeboard.Lists.finds {tb : Timeboard L} (hr : tb.Reachable) {ws : List (Seen L)} (h : tb.Lists ws) {t : Time}
    (h1 : tb.startTime ≤ t) (h2 : t ≤ tb.endTime) : ∃ x ∈ ws, x.start ≤ t ∧ t ≤ x.stop := by
  have hv := hr.valid
  rcases hv.locate_none t with ⟨k, hk, _⟩ | ⟨h3, _⟩ | ⟨h3, _⟩
  · obtain ⟨k0, k1, k2, k3⟩ := (hv.wf.wsPosition_ok_iff t k).1 hk
    obtain ⟨n, rfl⟩ := Int.eq_ofNat_of_zero_le k0
    have hlt : n < ws.length := by rw [h.1] at k1; omega
    refine ⟨ws[n], List.getElem_mem hlt, ?_⟩
    obtain ⟨w, w1, w2⟩ := h.2 n ws[n] (List.getElem?_eq_getElem hlt)
    obtain ⟨w', hw', _, _, _, g1, g2, _, _⟩ := Workshift.exists_of_range hv none k0 k1
    cases Workshift.ext_new w1 hw'
    have q1 := w2.1
    have q2 := w2.2.1
    rw [g1] at q1
    rw [g2] at q2
    simp only [Except.ok.injEq] at q1 q2
    omega
  · omega
  · omega

theorem Timeboard.new_bounds {a : Args L} {heap heap' : Heap L} {tb : Timeboard L} (ha : a.amendments = [])
    (h : Timeboard.new a heap = .ok (tb, heap')) {f : Frame} (hf : Frame.new a.freq a.start a.stop = .ok f) :
    tb.timeline.frame = f ∧ tb.startTime = f.unitStart 0 ∧ tb.endTime = f.unitEnd (f.n - 1) := by
  obtain ⟨_, f', _, _, h2, _, h3, _⟩ := Timeboard.starts_iff ha h
  rw [hf] at h2
  cases h2
  refine ⟨h3, ?_, ?_⟩
  · unfold Timeboard.startTime; rw [h3]; rfl
  · unfold Timeboard.endTime; rw [h3]; rfl

/-- Marks made by a regular marker are starts of base units. -/
theorem Marker.Regular.level {f : Frame} {m : Marker} (hr : m.Regular f.freq) (hm : f.freq.mult = 1) : Cut.Level f (.marker m) := by
  intro how hhow pi hpi hn ts hts t ht
  obtain ⟨ts', g1, g2⟩ := hr.each how hhow pi hpi hn
  rw [hts] at g1
  cases g1
  obtain ⟨o, _, _, ho⟩ := (g2 t).1 ht
  exact ⟨_, hr.mark_unit hm ⟨o, how, hhow, ho⟩⟩

end TB
