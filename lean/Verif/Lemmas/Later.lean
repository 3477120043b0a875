import Verif.Lemmas.Construct
import Verif.Spec.Later
/-! Frames and layouts some time later. -/
namespace TB
variable {L : Type}

theorem ordOf_later {b : Base} {d k : Int} (h : ∀ o, b.startOf (o + k) = b.startOf o + d) (t : Time) : b.ordOf (t + d) = b.ordOf t + k := by
  rw [b.ordOf_eq_iff]
  have h1 := b.startOf_le_self t
  have h2 := b.lt_startOf_succ t
  rw [h, show b.ordOf t + k + 1 = b.ordOf t + 1 + k by omega, h]
  omega

theorem ssRight_later (d : Int) (t : Int) : ∀ xs : List Int, ssRight (xs.map (· + d)) (t + d) = ssRight xs t
  | [] => rfl
  | x :: xs => by
    rw [List.map_cons, ssRight_cons, ssRight_cons, ssRight_later d t xs]
    by_cases h : x ≤ t
    · rw [if_pos h, if_pos (by omega)]
    · rw [if_neg h, if_neg (by omega)]

theorem ssLeft_later (d : Int) (t : Int) : ∀ xs : List Int, ssLeft (xs.map (· + d)) (t + d) = ssLeft xs t
  | [] => rfl
  | x :: xs => by
    rw [List.map_cons, ssLeft_cons, ssLeft_cons, ssLeft_later d t xs]
    by_cases h : x < t
    · rw [if_pos h, if_pos (by omega)]
    · rw [if_neg h, if_neg (by omega)]

theorem insertSorted_later (d : Int) (x : Int) : ∀ xs : List Int, insertSorted (x + d) (xs.map (· + d)) = (insertSorted x xs).map (· + d)
  | [] => rfl
  | y :: ys => by
    simp only [List.map_cons, insertSorted]
    by_cases h : x ≤ y
    · rw [if_pos h, if_pos (by omega)]; rfl
    · rw [if_neg h, if_neg (by omega), insertSorted_later d x ys]; rfl

theorem sortList_later (d : Int) : ∀ xs : List Int, sortList (xs.map (· + d)) = (sortList xs).map (· + d)
  | [] => rfl
  | x :: xs => by
    show insertSorted (x + d) (sortList (xs.map (· + d))) = _
    rw [sortList_later d xs, insertSorted_later]; rfl

theorem sliceAtPoints_later (d : Int) (pts : List Time) (a b : Time) :
    sliceAtPoints (pts.map (· + d)) (a + d) (b + d) = (sliceAtPoints pts a b).map (· + d) := by
  unfold sliceAtPoints
  simp only [ssRight_later, ssLeft_later, List.length_map, List.map_take, List.map_drop]

/-- The frame of base units `k` ordinals later. -/
def Frame.move (k : Int) (f : Frame) : Frame := { f with o0 := f.o0 + k }

/-- The base units start `d` later. -/
def Frame.Moves (f : Frame) (d k : Int) : Prop := ∀ o, f.freq.base.startOf (o + k) = f.freq.base.startOf o + d

section
variable {f : Frame} {d k : Int}

theorem Frame.ord_move (f : Frame) (k i : Int) : (f.move k).ord i = f.ord i + k := by
  unfold Frame.ord Frame.move; simp only; omega

theorem Frame.Moves.unitStart (h : f.Moves d k) (i : Int) : (f.move k).unitStart i = f.unitStart i + d := by
  unfold Frame.unitStart
  rw [Frame.ord_move]; exact h _

theorem Frame.Moves.unitEnd (h : f.Moves d k) (i : Int) : (f.move k).unitEnd i = f.unitEnd i + d := by
  unfold Frame.unitEnd
  rw [Frame.ord_move]
  have := h (f.ord i + f.freq.mult)
  show f.freq.base.startOf (f.ord i + k + f.freq.mult) - 1 = _
  rw [show f.ord i + k + (f.freq.mult : Int) = f.ord i + f.freq.mult + k by omega, this]; omega

theorem Frame.Moves.startTime (h : f.Moves d k) : (f.move k).startTime = f.startTime + d := h.unitStart 0
theorem Frame.Moves.endTime (h : f.Moves d k) : (f.move k).endTime = f.endTime + d := h.unitEnd _

theorem Frame.Moves.startTimes (h : f.Moves d k) : (f.move k).startTimes = f.startTimes.map (· + d) := by
  unfold Frame.startTimes
  rw [List.map_map]
  exact List.map_congr_left (fun i _ => h.unitStart i)

theorem Frame.ords_move (f : Frame) (k : Int) : (f.move k).ords = f.ords.map (· + k) := by
  unfold Frame.ords
  rw [List.map_map]
  exact List.map_congr_left (fun i _ => f.ord_move k i)

theorem Frame.Moves.getLoc (h : f.Moves d k) (t : Time) : (f.move k).getLoc (t + d) = f.getLoc t := by
  unfold Frame.getLoc
  rw [h.startTime, h.endTime, h.startTimes, ssRight_later]
  by_cases hc : t > f.endTime ∨ t < f.startTime
  · rw [if_pos hc, if_pos (by omega)]
  · rw [if_neg hc, if_neg (by omega)]

theorem Frame.Moves.getLocVectorized (h : f.Moves d k) (ts : List Time) (a b : Int) :
    (f.move k).getLocVectorized (ts.map (· + d)) a b = f.getLocVectorized ts a b := by
  unfold Frame.getLocVectorized
  have e : (f.move k).startTimes ++ [(f.move k).unitStart (((f.move k).n : Int) - 1) + nsSec] =
      (f.startTimes ++ [f.unitStart ((f.n : Int) - 1) + nsSec]).map (· + d) := by
    rw [h.startTimes, h.unitStart, List.map_append]
    simp only [List.map_cons, List.map_nil]
    rw [show (((f.move k).n : Int)) = (f.n : Int) from rfl]
    congr 2; omega
  simp only
  rw [e, List.map_map]
  congr 1
  exact List.map_congr_left (fun t _ => by simp only [Function.comp]; rw [ssRight_later])

theorem Frame.checkSpan_move (f : Frame) (k : Int) (s : Span) : (f.move k).checkSpan s = f.checkSpan s := by
  unfold Frame.checkSpan
  rw [Frame.ords_move]
  have e : ∀ i, pyGet? (f.ords.map (· + k)) i = (pyGet? f.ords i).map (· + k) := by
    intro i; unfold pyGet?; simp only [List.length_map, List.getElem?_map]
    split
    · rfl
    · split <;> rfl
  rw [e, e]
  cases pyGet? f.ords s.first <;> cases pyGet? f.ords s.last <;> rfl

theorem Frame.Moves.createSubspans (h : f.Moves d k) (s : Span) (ts : List Time) :
    (f.move k).createSubspans s (ts.map (· + d)) = f.createSubspans s ts := by
  unfold Frame.createSubspans Frame.locateSubspans
  rw [Frame.checkSpan_move, h.getLocVectorized]

theorem periodRange_later {g : Freq} (h : ∀ o, g.base.startOf (o + k) = g.base.startOf o + d) (a b : Time) :
    periodRange g (a + d) (b + d) = (periodRange g a b).map (· + k) := by
  unfold periodRange
  simp only [ordOf_later h]
  by_cases hc : g.base.ordOf b < g.base.ordOf a
  · rw [if_pos hc, if_pos (by omega)]; rfl
  · rw [if_neg hc, if_neg (by omega), List.map_map,
      show g.base.ordOf b + k - (g.base.ordOf a + k) = g.base.ordOf b - g.base.ordOf a by omega]
    exact List.map_congr_left (fun i _ => by simp only [Function.comp]; omega)

theorem Frame.new_later {g : Freq} (h : ∀ o, g.base.startOf (o + k) = g.base.startOf o + d) (a b : Time) :
    Frame.new g (a + d) (b + d) = (Frame.new g a b).map (Frame.move k) := by
  unfold Frame.new
  rw [periodRange_later h]
  cases periodRange g a b with
  | nil => rfl
  | cons o os => simp [Except.map, Frame.move]

theorem countDifference_later (k : Int) (xs ys : List Int) : countDifference (xs.map (· + k)) (ys.map (· + k)) = countDifference xs ys := by
  unfold countDifference
  rw [List.filter_map, List.length_map]
  congr 2
  apply List.filter_congr
  intro x _
  simp only [Function.comp]
  congr 1
  rw [Bool.eq_iff_iff, List.contains_iff_mem, List.contains_iff_mem, List.mem_map]
  constructor
  · rintro ⟨y, hy, e⟩
    rw [show x = y by omega]; exact hy
  · intro hx; exact ⟨x, hx, rfl⟩

/-- The stencil with all times moved. -/
def Stencil.later (d : Int) (st : Stencil) : Stencil :=
  { st with leftBound := st.leftBound + d, rightBound := st.rightBound + d, points := st.points.map (· + d) }

theorem collectAts_later {m : Marker} {bu : Freq} {pi pi' : Frame} (hm : m.Recurs bu d) (h1 : pi.freq = m.each) (h2 : pi'.freq = m.each)
    (h3 : pi'.n = pi.n) (h4 : pi'.startTime = pi.startTime + d) :
    collectAts pi' bu m.ats = (collectAts pi bu m.ats).map (fun ts => ts.map (· + d)) := by
  have key : ∀ ats : List (Frame → Freq → Except Err (List Time)), (∀ how ∈ ats, how pi' bu = (how pi bu).map (fun ts => ts.map (· + d))) →
      collectAts pi' bu ats = (collectAts pi bu ats).map (fun ts => ts.map (· + d)) := by
    intro ats
    induction ats with
    | nil => intro _; rfl
    | cons g gs ih =>
      intro h
      simp only [collectAts, Bind.bind, Except.bind, pure, Except.pure]
      rw [h g (by simp), ih (fun x hx => h x (by simp [hx]))]
      cases g pi bu with
      | error e => rfl
      | ok p => cases collectAts pi bu gs with
        | error e => rfl
        | ok r => simp [Except.map]
  exact key m.ats (fun how hh => hm.2 how hh pi pi' h1 h2 h3 h4)

theorem Frame.Moves.stencilFor (h : f.Moves d k) {m : Marker} (hm : m.Recurs f.freq d) (a b : Time) :
    (f.move k).stencilFor m (a + d) (b + d) = (f.stencilFor m a b).map (fun o => o.map (Stencil.later d)) := by
  obtain ⟨j, hj⟩ := hm.1
  unfold Frame.stencilFor
  by_cases he : m.ats.isEmpty = true
  · rw [if_pos he, if_pos he]
    rw [Frame.new_later hj]
    cases hF : Frame.new m.each a b with
    | error e => rfl
    | ok F =>
      have hFf : F.freq = m.each := by obtain ⟨_, rfl⟩ := Frame.new_ok_iff.1 hF; rfl
      have hM : F.Moves d j := by unfold Frame.Moves; rw [hFf]; exact hj
      simp only [Except.map, Bind.bind, Except.bind, pure, Except.pure, hM.startTime, hM.endTime, hM.startTimes, Stencil.later, Option.map]
  · rw [if_neg he, if_neg he]
    rw [show a + d - getFreqDelta m.each = a - getFreqDelta m.each + d by omega,
      show b + d + getFreqDelta m.each = b + getFreqDelta m.each + d by omega, Frame.new_later hj]
    cases hF : Frame.new m.each (a - getFreqDelta m.each) (b + getFreqDelta m.each) with
    | error e => rfl
    | ok F =>
      have hFf : F.freq = m.each := by obtain ⟨_, rfl⟩ := Frame.new_ok_iff.1 hF; rfl
      have hM : F.Moves d j := by unfold Frame.Moves; rw [hFf]; exact hj
      simp only [Except.map, Bind.bind, Except.bind, pure, Except.pure]
      rw [show (f.move k).freq = f.freq from rfl, collectAts_later hm hFf (pi' := F.move j) hFf rfl hM.startTime]
      cases collectAts F f.freq m.ats with
      | error e => rfl
      | ok cand =>
        simp only [Except.map, sortList_later, sliceAtPoints_later, List.head?_map, List.getLast?_map]
        cases (sliceAtPoints (sortList cand) a b).head? with
        | none => rfl
        | some a0 => cases (sliceAtPoints (sortList cand) a b).getLast? with
          | none => rfl
          | some a1 =>
            simp only [Option.map, Stencil.later, Except.ok.injEq, Option.some.injEq, Stencil.mk.injEq, and_true]
            refine ⟨by omega, by omega, ?_, ?_⟩
            · congr 1; simp only [eq_iff_iff]; omega
            · congr 1; simp only [eq_iff_iff]; omega

theorem Frame.Moves.skipBefore (h : f.Moves d k) (s : Span) (st : Stencil) (a : Time) :
    (f.move k).skipBefore s (st.later d) (a + d) = f.skipBefore s st a := by
  unfold Frame.skipBefore
  simp only [Stencil.later, Frame.ords_move]
  rw [show (f.move k).freq = f.freq from rfl, periodRange_later h, ← List.map_drop, countDifference_later]
  split
  · rfl
  · by_cases hc : st.leftBound < a
    · rw [if_pos hc, if_pos (by omega)]
    · rw [if_neg hc, if_neg (by omega)]

theorem Frame.Moves.skipAfter (h : f.Moves d k) (s : Span) (st : Stencil) (b : Time) :
    (f.move k).skipAfter s (st.later d) (b + d) = f.skipAfter s st b := by
  unfold Frame.skipAfter
  simp only [Stencil.later, Frame.ords_move, h.unitStart]
  rw [show (f.move k).freq = f.freq from rfl, periodRange_later h, ← List.map_take, countDifference_later]
  split
  · rfl
  · by_cases hc : st.rightBound > b
    · rw [if_pos hc, if_pos (by omega)]
    · rw [if_neg hc, if_neg (by omega)]

theorem Frame.Moves.cutSpan (h : f.Moves d k) {c : Cut} (hm : ∀ m, c = .marker m → m.Recurs f.freq d) (s : Span) :
    (f.move k).cutSpan (c.later d) s = f.cutSpan c s := by
  cases c with
  | marks ts => exact h.createSubspans s ts
  | marker m =>
    simp only [Frame.cutSpan, Cut.later]
    unfold Frame.partitionWithMarker
    simp only [h.unitStart, h.unitEnd, Frame.checkSpan_move, h.stencilFor (hm m rfl), show (f.move k).freq = f.freq from rfl]
    split
    · rfl
    · simp only [Bind.bind, Except.bind]
      cases f.checkSpan s with
      | error e => rfl
      | ok u =>
        simp only
        cases f.stencilFor m (f.unitStart s.first) (f.unitEnd s.last) with
        | error e => rfl
        | ok o =>
          cases o with
          | none => rfl
          | some st =>
            simp only [Except.map, Option.map, h.skipBefore, h.skipAfter]
            rw [show (st.later d).points = st.points.map (· + d) from rfl, h.createSubspans]

mutual
theorem Frame.Moves.run (h : f.Moves d k) : ∀ l : Layout L, (∀ m, l.UsesMarker m → m.Recurs f.freq d) →
    Layout.run (f.move k) (l.later d) = Layout.run f l
  | .organizer cut elems => by
    intro hl
    have e1 : ∀ s, (f.move k).cutSpan (cut.later d) s = f.cutSpan cut s :=
      h.cutSpan (fun m hm => hl m (.inl ⟨elems, by rw [hm]; exact .here⟩))
    have e2 := Frame.Moves.runAll h elems (fun l hle m hm => hl m (by
      rcases hm with ⟨es, hm⟩ | ⟨i, hm⟩
      · exact .inl ⟨es, .elem hle hm⟩
      · exact .inr ⟨i, .elem hle hm⟩))
    simp only [Layout.run, Layout.later, e1, e2]
  | .organizerRP cut i => by
    intro hl
    have e1 : ∀ s, (f.move k).cutSpan (cut.later d) s = f.cutSpan cut s :=
      h.cutSpan (fun m hm => hl m (.inr ⟨i, by rw [hm]; exact .here⟩))
    simp only [Layout.run, Layout.later, e1]
  | .pattern p => by intro _; rfl
  | .label l => by intro _; rfl
theorem Frame.Moves.runAll (h : f.Moves d k) : ∀ ls : List (Layout L), (∀ l ∈ ls, ∀ m, l.UsesMarker m → m.Recurs f.freq d) →
    Layout.runAll (f.move k) (Layout.laterAll d ls) = Layout.runAll f ls
  | [] => by intro _; rfl
  | l :: ls => by
    intro hl
    simp only [Layout.runAll, Layout.laterAll]
    rw [Frame.Moves.run h l (hl l (by simp)), Frame.Moves.runAll h ls (fun x hx => hl x (by simp [hx]))]
end

end

end TB
