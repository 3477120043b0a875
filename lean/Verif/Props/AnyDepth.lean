import Verif.Lemmas.AnyDepth
import Verif.Props.Reading
import Verif.Props.Written
import Verif.Props.TwoGoes
/-! Property C128: calendar patterns at any depth. -/
namespace TB
open TB.Ex
variable {L : Type}

/-- Every period of one frequency begins with a base unit. -/
def Base.UnitsOf (each bu : Base) : Prop := ∀ o, ∃ o', each.startOf o = bu.startOf o'

theorem checkGroupby_units {bu each : Freq} (hc : checkGroupbyFreq bu each = true) : each.base.UnitsOf bu.base := by
  rcases checkGroupby_aligned hc with ⟨_, h2⟩ | ⟨h1, h2⟩
  · exact h2
  · intro o; exact ⟨o, by rw [h1]⟩

theorem Base.UnitsOf.ordOf_start {each bu : Base} (hal : each.UnitsOf bu) (t : Time) : each.ordOf (bu.startOf (bu.ordOf t)) = each.ordOf t := by
  rw [each.ordOf_eq_iff]
  obtain ⟨o', ho'⟩ := hal (each.ordOf t)
  have b1 := each.startOf_le_self t
  have b2 := each.lt_startOf_succ t
  have b3 := bu.startOf_le_self t
  refine ⟨?_, by omega⟩
  rw [ho'] at b1 ⊢
  rw [bu.startOf_le_startOf]
  exact (bu.startOf_le_iff _ _).1 b1

theorem Layout.MadeOf.is_organizer {P : Freq × List L → Prop} {l : Layout L} (h : l.MadeOf P) : ∃ cut elems, l = .organizer cut elems := by
  cases h with
  | season => exact ⟨_, _, rfl⟩
  | organizer => exact ⟨_, _, rfl⟩

/-- What is read of the layout and of the amendments. -/
theorem Layout.MadeOf.read_back {a : Args L} {heap heap' : Heap L} {m : Memory L} (hm : heap.Shows m) {P : Freq × List L → Prop}
    (hl : a.layout.MadeOf P) {tb : Timeboard L} (h : Timeboard.new a heap = .ok (tb, heap')) :
    ∃ f ps m' qs, Frame.new a.freq a.start a.stop = .ok f ∧
      Layout.read f a.defaultLabel a.layout { first := 0, last := (f.n : Int) - 1 } m = .ok (ps, m') ∧
      amendPieces f a.amendments ps = .ok qs ∧ heap'.Shows m' ∧ tb.ConsistsOf f qs := by
  obtain ⟨f, qs, m', h1, h2, h3⟩ := C97_read_back hm h
  obtain ⟨cut, elems, he⟩ := hl.is_organizer
  unfold Args.read at h1
  rw [he] at h1
  simp only at h1
  unfold Args.readLayout at h1
  rw [Args.frame_eq] at h1
  split at h1
  · cases h1
  · cases hf : Frame.new a.freq a.start a.stop with
    | error e => rw [hf] at h1; cases h1
    | ok f' =>
      rw [hf] at h1
      simp only at h1
      rw [← he] at h1
      cases hr : Layout.read f' a.defaultLabel a.layout { first := 0, last := (f'.n : Int) - 1 } m with
      | error e => rw [hr] at h1; cases h1
      | ok r =>
        obtain ⟨ps, m1⟩ := r
        rw [hr] at h1
        simp only at h1
        cases hq : amendPieces f' a.amendments ps with
        | error e => rw [hq] at h1; cases h1
        | ok qs' =>
          rw [hq] at h1
          cases h1
          exact ⟨_, ps, _, _, rfl, hr, hq, h2, h3⟩

/-- **C128.** Organizers around calendar patterns, however many: each base unit is a workshift, and its label is the one of its place in its
calendar period under the pattern in force, wherever the spans of the organizers begin. -/
theorem C128_in_force {a : Args L} {heap heap' : Heap L} {m : Memory L} (hm : heap.Shows m) {P : Freq × List L → Prop} (hl : a.layout.MadeOf P)
    (hP : ∀ p, P p → p.2 ≠ [] ∧ p.1.mult = 1 ∧ checkGroupbyFreq a.freq p.1 = true) (hbu : a.freq.mult = 1) {tb : Timeboard L}
    (h : Timeboard.new a heap = .ok (tb, heap')) :
    heap'.Shows m ∧ ∃ f, Frame.new a.freq a.start a.stop = .ok f ∧ ∀ t, tb.startTime ≤ t → t ≤ tb.endTime → ∃ p l w,
      P p ∧ f.InForce a.layout { first := 0, last := (f.n : Int) - 1 } t p ∧ cyclic p.2 (placeIn a.freq p.1 t) = some l ∧
      tb.getWorkshift t = .ok w ∧ w.startTime tb = .ok (Period.ofTime a.freq t).startTime ∧ w.duration tb = .ok 1 ∧
      w.label = amendedAt a.freq a.amendments t l := by
  obtain ⟨f, ps, m', qs, hf, hr, hq, h1, h2⟩ := Layout.MadeOf.read_back hm hl h
  have hff : f.freq = a.freq := by rw [Frame.new_ok_iff] at hf; rw [hf.2]
  have hn : 0 < f.n := Frame.new_valid hf
  have hbu' : f.freq.mult = 1 := by rw [hff]; exact hbu
  have hP' : ∀ p, P p → f.Takes p := by intro p hp; obtain ⟨p1, p2, p3⟩ := hP p hp; exact ⟨p1, p2, by rw [hff]; exact p3⟩
  obtain ⟨rfl, e1, e2⟩ := hl.read_units hbu' a.defaultLabel hP' { first := 0, last := (f.n : Int) - 1 } ⟨Int.le_refl _, by simp only; omega, by simp only; omega⟩ m ps m' hr
  refine ⟨h1, f, hf, fun t t1 t2 => ?_⟩
  obtain ⟨b1, b2⟩ := Timeboard.new_ends h hf
  have i1 : 0 ≤ f.unitNo t := (f.unitStart_le_at 0 t).1 (by omega)
  have i2 : f.unitNo t < f.n := by
    have := f.unitStart_le_at ((f.n : Int) - 1 + 1) t
    rw [b2, Frame.unitEnd_eq] at t2
    omega
  have u1 : f.unitStart (f.unitNo t) ≤ t := (f.unitStart_le_at _ _).2 (Int.le_refl _)
  have u2 : t ≤ f.unitEnd (f.unitNo t) := by
    have := f.unitStart_le_at (f.unitNo t + 1) t
    rw [Frame.unitEnd_eq]
    omega
  obtain ⟨k, hk⟩ : ∃ k : Nat, f.unitNo t = k := ⟨(f.unitNo t).toNat, by omega⟩
  rw [hk] at i2 u1 u2
  simp only [Int.sub_add_cancel] at e1
  obtain ⟨q, hkq, hq1⟩ : ∃ q, ps[k]? = some q ∧ q.first = k := by
    have : (ps.map Piece.first)[k]? = some ((0 : Int) + k) := by rw [e1]; exact getElem?_intRange (by omega)
    rw [List.getElem?_map, Option.map_eq_some_iff] at this
    obtain ⟨q, q1, q2⟩ := this
    exact ⟨q, q1, by omega⟩
  obtain ⟨q2, _, _, p, p1, p2, p3⟩ := e2 q (List.mem_of_getElem? hkq)
  rw [hq1] at q2 p2 p3
  unfold amendPieces at hq
  split at hq
  · cases hq
  · simp only [Except.ok.injEq] at hq
    have hkq' : qs[k]? = some { q with label := (((q.hits f a.amendments).head?).map Prod.snd).getD q.label } := by
      rw [← hq, List.getElem?_map, hkq]; rfl
    obtain ⟨_, c2, c3⟩ := h2
    obtain ⟨w, w1, w2, w3, w4, w5⟩ := c3 k _ hkq'
    simp only [hq1, q2] at w2 w3 w4
    have hv := (Timeboard.Reachable.new h).valid
    have hlt : k < qs.length := by
      rcases Nat.lt_or_ge k qs.length with h' | h'
      · exact h'
      · rw [List.getElem?_eq_none h'] at hkq'; cases hkq'
    have hlen : (k : Int) < tb.timeline.len := by rw [c2]; omega
    obtain ⟨w', hw', _, _, _, g1, g2, _, _⟩ := Workshift.exists_of_range hv none (by omega : (0 : Int) ≤ k) hlen
    cases Workshift.ext_new w1 hw'
    have r1 := w2
    have r2 := w3
    rw [g1] at r1
    rw [g2] at r2
    simp only [Except.ok.injEq] at r1 r2
    have hp : tb.timeline.wsPosition t = .ok (k : Int) := (hv.wf.wsPosition_ok_iff t k).2 ⟨by omega, hlen, by omega, by omega⟩
    have hord : ∀ j, f.ord j = f.o0 + j := by intro j; simp [Frame.ord, hbu']
    have hot : f.ord k = f.freq.base.ordOf t := by
      have := hk
      unfold Frame.unitNo at this
      rw [hbu'] at this
      rw [hord]
      rw [show ((1 : Nat) : Int) = 1 from rfl, Int.ediv_one] at this
      omega
    have hus : f.unitStart k = f.freq.base.startOf (f.freq.base.ordOf t) := by rw [← hot]; rfl
    refine ⟨p, q.label, w, p1, p2 t u1 u2, ?_, by rw [hv.getWorkshift_of_within hp]; exact w1, ?_, ?_, ?_⟩
    · rw [hot, hus, (checkGroupby_units (hP' p p1).2.2).ordOf_start, hff] at p3
      exact p3
    · rw [w2, hus, hff]; rfl
    · rw [w4]; simp
    · rw [w5]
      unfold amendedAt
      simp only
      congr 3
      unfold Piece.hits
      apply List.filter_congr
      intro x _
      rw [q2, hq1, Frame.unitEnd_eq, hus, show f.unitStart ((k : Int) + 1) = f.freq.base.startOf (f.freq.base.ordOf t + 1) by
        rw [← hot]; unfold Frame.unitStart; congr 1; rw [hord, hord]; omega, hff]
      have e1 := a.freq.base.startOf_le_iff (a.freq.base.ordOf t) x.1
      have e2 := a.freq.base.startOf_le_iff (a.freq.base.ordOf t + 1) x.1
      have e3 : (Period.ofTime a.freq x.1).ord = a.freq.base.ordOf x.1 := rfl
      have e4 : (Period.ofTime a.freq t).ord = a.freq.base.ordOf t := rfl
      rw [Bool.eq_iff_iff, decide_eq_true_iff, beq_iff_eq, e3, e4]
      omega

/-- A list of pieces of one base unit each, whose labels depend on the base unit only. -/
theorem pieces_unique {R : Int → L → Prop} (hR : ∀ i l l', R i l → R i l' → l = l') : ∀ {is : List Int} {ps qs : List (Piece L)},
    ps.map Piece.first = is → qs.map Piece.first = is → (∀ q ∈ ps, q.last = q.first ∧ R q.first q.label) → (∀ q ∈ qs, q.last = q.first ∧ R q.first q.label) →
    ps = qs
  | _, [], [], _, _, _, _ => rfl
  | _, [], q :: qs, rfl, h, _, _ => by simp at h
  | _, p :: ps, [], rfl, h, _, _ => by simp at h
  | _, p :: ps, q :: qs, rfl, h, h1, h2 => by
    simp only [List.map_cons, List.cons.injEq] at h
    obtain ⟨e, h⟩ := h
    obtain ⟨a1, a2⟩ := h1 p (List.mem_cons_self ..)
    obtain ⟨b1, b2⟩ := h2 q (List.mem_cons_self ..)
    have hl := pieces_unique hR rfl h (fun q hq => h1 q (List.mem_cons_of_mem _ hq)) (fun q hq => h2 q (List.mem_cons_of_mem _ hq))
    rw [← e] at a2
    have := hR _ _ _ a2 b2
    have hpq : p = q := by
      cases p; cases q
      simp only at a1 b1 e this
      subst e this a1 b1
      rfl
    rw [hpq, hl]

theorem Timeboard.ConsistsOf.table {tb : Timeboard L} {f : Frame} {ps : List (Piece L)} (h : tb.ConsistsOf f ps) :
    tb.Table (ps.map (fun p => (f.unitStart p.first, p.label))) := by
  obtain ⟨_, h2, h3⟩ := h
  refine ⟨by rw [List.length_map]; exact h2, fun k r hr => ?_⟩
  rw [List.getElem?_map, Option.map_eq_some_iff] at hr
  obtain ⟨p, p1, rfl⟩ := hr
  obtain ⟨w, w1, w2, _, _, w5⟩ := h3 k p p1
  exact ⟨w, w1, w2, w5⟩

/-- **C128**, one calendar pattern everywhere: the organizers around it make no difference. -/
theorem C128_invisible {a : Args L} {heap heap' other : Heap L} {m m' : Memory L} (hm : heap.Shows m) (hm' : other.Shows m') {p : Freq × List L}
    (hl : a.layout.MadeOf (fun q => q = p)) (h1 : p.2 ≠ []) (h2 : p.1.mult = 1) (h3 : checkGroupbyFreq a.freq p.1 = true) (hbu : a.freq.mult = 1)
    {tb : Timeboard L} (h : Timeboard.new a heap = .ok (tb, heap')) :
    ∃ other', Timeboard.new { a with layout := season p } other = .ok (tb, other') := by
  obtain ⟨f, ps, m1, qs, hf, hr, hq, _, hcons⟩ := Layout.MadeOf.read_back hm hl h
  have hff : f.freq = a.freq := by rw [Frame.new_ok_iff] at hf; rw [hf.2]
  have hn : 0 < f.n := Frame.new_valid hf
  have hbu' : f.freq.mult = 1 := by rw [hff]; exact hbu
  have hT : f.Takes p := ⟨h1, h2, by rw [hff]; exact h3⟩
  have hwi : ({ first := 0, last := (f.n : Int) - 1 } : Span).Within f.n := ⟨Int.le_refl _, by simp only; omega, by simp only; omega⟩
  obtain ⟨_, e1, e2⟩ := hl.read_units hbu' a.defaultLabel (P := fun q => q = p) (fun q hq => by rw [hq]; exact hT) _ hwi m ps m1 hr
  obtain ⟨ps', g1, g2, g3⟩ := Frame.season_read hbu' a.defaultLabel hT hwi m'
  have hps : ps = ps' := pieces_unique
    (R := fun i l => cyclic p.2 (f.ord i - f.freq.base.ordOf (p.1.base.startOf (p.1.base.ordOf (f.unitStart i)))).toNat = some l)
    (fun i l l' x y => by rw [x] at y; cases y; rfl) e1 g2
    (fun q hq => by obtain ⟨a1, _, _, p', rfl, _, a5⟩ := e2 q hq; exact ⟨a1, a5⟩) (fun q hq => by obtain ⟨a1, _, _, a4⟩ := g3 q hq; exact ⟨a1, a4⟩)
  subst hps
  obtain ⟨_, _, _, _, _, hw, _, _⟩ := Timeboard.new_ok_iff.1 h
  have hread : ({ a with layout := season p } : Args L).read m' = .ok (f, qs, m') := by
    unfold Args.read
    unfold season
    simp only
    unfold Args.readLayout
    rw [if_neg (by simp only [List.mem_cons, List.not_mem_nil, or_false] at hw; rintro ⟨x, y⟩; rcases hw with hw | hw; exact x hw; exact y hw), Args.frame_eq]
    simp only
    rw [hf]
    simp only
    unfold season at g1
    rw [g1]
    simp only
    rw [hq]
  have := C97_workshifts { a with layout := season p } other m' hm'
  rw [hread] at this
  obtain ⟨tb', other', k1, _, k3⟩ := this
  obtain ⟨_, en⟩ := Timeboard.new_ends h hf
  obtain ⟨_, en'⟩ := Timeboard.new_ends k1 hf
  have := C125_same_table h k1 hcons.table k3.table rfl rfl rfl rfl rfl (en.trans en'.symm)
  rw [← this] at k1
  exact ⟨other', k1⟩

/-- **C128**, not more than one calendar pattern is in force at a time. -/
theorem C128_one {f : Frame} {l : Layout L} {t : Time} {p p' : Freq × List L} (hn : 0 < f.n)
    (h : f.InForce l { first := 0, last := (f.n : Int) - 1 } t p) (h' : f.InForce l { first := 0, last := (f.n : Int) - 1 } t p') : p = p' :=
  Frame.inForce_unique h ⟨Int.le_refl _, by simp only; omega, by simp only; omega⟩ h'

/-- Weeks of two kinds, within halves of months, within months. -/
def deepArgs (wA wB : List Int) : Args Int where
  freq := fD
  start := date 2017 1 25
  stop := date 2017 2 22
  layout := .organizer (.marker ⟨fM, []⟩) [season (fW, wA),
    .organizer (.marks [date 2017 2 9, date 2017 2 16]) [season (fW, wB), .organizer (.marks [date 2017 2 11]) [season (fW, wA)]]]
  selector := fun l => decide (l > 1)
  defaultLabel := 0
  amendments := [(date 2017 2 10, 50)]

-- the layout is made of the two patterns, and both may be applied to days
example : (deepArgs [1, 2, 3, 4, 5, 6, 7] [11, 12, 13, 14, 15, 16, 17]).layout.MadeOf
      (fun p => p = (fW, [1, 2, 3, 4, 5, 6, 7]) ∨ p = (fW, [11, 12, 13, 14, 15, 16, 17])) :=
  .organizer (by simp) (by
    intro e he
    simp only [List.mem_cons, List.not_mem_nil, or_false] at he
    rcases he with rfl | rfl
    · exact .season (.inl rfl)
    · exact .organizer (by simp) (by
        intro e he
        simp only [List.mem_cons, List.not_mem_nil, or_false] at he
        rcases he with rfl | rfl
        · exact .season (.inr rfl)
        · exact .organizer (by simp) (by
            intro e he
            rw [List.mem_singleton] at he
            rw [he]
            exact .season (.inl rfl))))

example : fW.mult = 1 ∧ fD.mult = 1 ∧ checkGroupbyFreq fD fW = true := by decide +kernel

-- 25 January 2017 is a Wednesday: the weeks go on through the borders of months (31 January, Tuesday), of halves (9 and 16 February, Thursdays) and
-- through the mark of 11 February, a Saturday; 10 February is amended
example : (Timeboard.new (deepArgs [1, 2, 3, 4, 5, 6, 7] [11, 12, 13, 14, 15, 16, 17]) heap0).map (fun r => r.1.timeline.labels) =
    .ok [3, 4, 5, 6, 7, 1, 2,  13, 14, 15, 16, 17, 11, 12, 13,  4, 50, 6, 7, 1, 2, 3,  14, 15, 16, 17, 11, 12, 13] := by decide +kernel

-- one pattern everywhere
example : (Timeboard.new (deepArgs [1, 2, 3, 4, 5, 6, 7] [1, 2, 3, 4, 5, 6, 7]) heap0).map (fun r => r.1.timeline.labels) =
    .ok [3, 4, 5, 6, 7, 1, 2, 3, 4, 5, 6, 7, 1, 2, 3, 4, 50, 6, 7, 1, 2, 3, 4, 5, 6, 7, 1, 2, 3] := by decide +kernel

/-- **C128**, not so for a pattern which is not a calendar pattern, as it begins anew with each span; nor for a pattern of two weeks, as the pairs of
weeks are counted from the start of the span. -/
theorem C128_negation_pattern :
    let a : Args Int := patArgs [1, 2, 3]
    let two : Layout Int := season (⟨some 2, .W none, by decide⟩, [1, 1, 1, 1, 1, 1, 1, 2, 2, 2, 2, 2, 2, 2])
    let around (l : Layout Int) : Layout Int := .organizer (.marks [date 2017 1 5]) [l]
    let labels (l : Layout Int) := (Timeboard.new { a with layout := l, stop := date 2017 1 12 } heap0).map (fun r => r.1.timeline.labels)
    labels a.layout = .ok [1, 2, 3, 1, 2, 3, 1, 2, 3, 1, 2, 3] ∧ labels (around a.layout) = .ok [1, 2, 3, 1, 1, 2, 3, 1, 2, 3, 1, 2] ∧
    labels two = .ok [1, 2, 2, 2, 2, 2, 2, 2, 1, 1, 1, 1] ∧ labels (around two) = .ok [1, 2, 2, 2, 1, 1, 1, 1, 2, 2, 2, 2] := by decide +kernel

end TB
