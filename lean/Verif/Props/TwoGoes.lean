import Verif.Lemmas.TwoGoes
import Verif.Props.Nested
import Verif.Props.Reference
import Verif.Props.Local
/-! Property C127: a timeboard can be made in two goes. -/
namespace TB
open TB.Ex
variable {L : Type}

theorem Frame.new_before {a : Args L} {f : Frame} (hf : Frame.new a.freq a.start a.stop = .ok f) {i : Int} (h0 : 0 < i) :
    Frame.new a.freq a.start (f.unitStart i - 1) = .ok (f.part { first := 0, last := i - 1 }) := by
  have h := Frame.part_new f (x := { first := 0, last := i - 1 }) (by simp only; omega)
  simp only at h
  rw [Frame.unitEnd_eq, Int.sub_add_cancel] at h
  rw [Frame.new_ok_iff] at hf h ⊢
  have hff : f.freq = a.freq := by rw [hf.2]
  have ho : f.freq.base.ordOf (f.unitStart 0) = a.freq.base.ordOf a.start := by
    rw [show f.freq.base.ordOf (f.unitStart 0) = f.ord 0 from Base.ordOf_startOf _ _, hf.2]
    unfold Frame.ord; simp
  rw [ho, hff] at h
  exact h

theorem Frame.new_startingAt {a : Args L} {f : Frame} (hf : Frame.new a.freq a.start a.stop = .ok f) {i : Int} (h1 : i < f.n) :
    Frame.new a.freq (f.unitStart i) a.stop = .ok (f.part { first := i, last := (f.n : Int) - 1 }) := by
  rw [Frame.new_ok_iff] at hf ⊢
  have hff : f.freq = a.freq := by rw [hf.2]
  have ho : a.freq.base.ordOf (f.unitStart i) = a.freq.base.ordOf a.start + a.freq.mult * i := by
    rw [← hff, show f.freq.base.ordOf (f.unitStart i) = f.ord i from Base.ordOf_startOf _ _, hf.2]
    rfl
  have hm := a.freq.mult_pos
  have hd : 0 ≤ (a.freq.base.ordOf a.stop - a.freq.base.ordOf a.start) / (a.freq.mult : Int) := Int.ediv_nonneg (by omega) (by omega)
  have hn : (f.n : Int) = (a.freq.base.ordOf a.stop - a.freq.base.ordOf a.start) / a.freq.mult + 1 := by
    rw [hf.2]; simp only; omega
  have hle : (a.freq.mult : Int) * i ≤ a.freq.base.ordOf a.stop - a.freq.base.ordOf a.start := by
    have : i ≤ (a.freq.base.ordOf a.stop - a.freq.base.ordOf a.start) / (a.freq.mult : Int) := by omega
    rw [Int.le_ediv_iff_mul_le (by omega)] at this
    rw [Int.mul_comm]; exact this
  rw [ho]
  refine ⟨by omega, ?_⟩
  have e : a.freq.base.ordOf a.stop - (a.freq.base.ordOf a.start + a.freq.mult * i) =
      a.freq.base.ordOf a.stop - a.freq.base.ordOf a.start + a.freq.mult * (-i) := by rw [Int.mul_neg]; omega
  rw [e, Int.add_mul_ediv_left _ _ (by omega)]
  unfold Frame.part
  have e3 : f.ord i = a.freq.base.ordOf a.start + a.freq.mult * i := by rw [hf.2]; rfl
  rw [hff, e3]
  simp only
  congr 2
  omega

/-- A layout for a whole timeboard. -/
def Layout.IsWhole : Layout L → Prop
  | .label _ => False
  | .pattern (.rp _) => False
  | _ => True

theorem Layout.TurnsAt.isWhole {l : Layout L} {k : Nat} {c : Cut} (h : l.TurnsAt k c) : l.IsWhole := by
  cases l with
  | label v => exact h.elim
  | pattern p => exact h.elim
  | organizer c' es => trivial
  | organizerRP c' id => trivial

theorem unitPieces_split (dl : L) (xs : List L) (p : Nat) {s : Span} {i : Int} (h1 : s.first ≤ i) (h2 : i ≤ s.last) :
    unitPieces dl xs p s = unitPieces dl xs p { first := s.first, last := i - 1 } ++
      unitPieces dl xs (p + (i - s.first).toNat) { first := i, last := s.last } := by
  unfold unitPieces
  simp only
  obtain ⟨a, ha⟩ : ∃ a : Nat, i = s.first + a := ⟨(i - s.first).toNat, by omega⟩
  obtain ⟨b, hb⟩ : ∃ b : Nat, s.last + 1 = i + b := ⟨(s.last + 1 - i).toNat, by omega⟩
  rw [show (s.last + 1 - s.first).toNat = a + b by omega, show (i - 1 + 1 - s.first).toNat = a by omega,
    show (s.last + 1 - i).toNat = b by omega, List.range_add, List.map_append, List.map_map, show (i - s.first).toNat = a by omega]
  congr 1
  apply List.map_congr_left
  intro j _
  simp only [Function.comp]
  rw [show s.first + ((a + j : Nat) : Int) = i + j by omega, Nat.add_assoc]

/-- What is read for a timeboard with an organizer for the layout. -/
theorem Args.read_turns (a : Args L) (hl : a.layout.IsWhole) (hw : a.worktimeSource = "duration" ∨ a.worktimeSource = "labels")
    {f : Frame} (hf : Frame.new a.freq a.start a.stop = .ok f) (m : Memory L) :
    a.read m = match Layout.read f a.defaultLabel a.layout { first := 0, last := (f.n : Int) - 1 } m with
      | .error e => .error e
      | .ok (ps, m') => match amendPieces f a.amendments ps with
        | .error e => .error e
        | .ok qs => .ok (f, qs, m') := by
  have h1 : a.read m = a.readLayout a.layout m := by
    unfold Args.read
    generalize hla : a.layout = l at hl
    cases l with
    | label v => exact hl.elim
    | pattern p => cases p with
      | list xs => rfl
      | rp id => exact hl.elim
    | organizer c' es => rfl
    | organizerRP c' id => rfl
  rw [h1]
  unfold Args.readLayout
  rw [if_neg (by rintro ⟨g1, g2⟩; rcases hw with g | g <;> contradiction), Args.frame_eq, hf]
  rfl

theorem Piece.moved_shift (f : Frame) (x : Span) (r : Bool) (p : Piece L) : (p.moved x.first).shift f r = p.shift (f.part x) r := by
  unfold Piece.shift Piece.moved
  simp only
  rw [Frame.part_unitStart, Frame.part_unitEnd]
  congr 1
  omega

/-- A timeboard is made in two goes if its layout is read in two goes. -/
theorem Timeboard.new_two (a : Args L) (heap : Heap L) (m : Memory L) (hm : heap.Shows m) {f : Frame} {i : Int}
    (hl : a.layout.IsWhole) (hlev : a.layout.Level f) (hf : Frame.new a.freq a.start a.stop = .ok f) (b1 : 0 < i) (b2 : i ≤ (f.n : Int) - 1)
    (hread : Layout.read f a.defaultLabel a.layout { first := 0, last := (f.n : Int) - 1 } m =
      thenRead (Layout.read f a.defaultLabel a.layout { first := 0, last := i - 1 } m) (Layout.read f a.defaultLabel a.layout { first := i, last := (f.n : Int) - 1 })) :
    match Timeboard.new (a.before (f.unitStart i)) heap with
    | .error e => ∃ e', Timeboard.new a heap = .error e' ∧ (e' = e ∨ e = .keyError)
    | .ok (tb1, heap1) => match Timeboard.new (a.startingAt (f.unitStart i)) heap1 with
      | .error e => Timeboard.new a heap = .error e
      | .ok (tb2, heap2) => ∃ tb heap', ∃ xs1 xs2 : List (Shift L), ∃ m', Timeboard.new a heap = .ok (tb, heap') ∧
          tb1.ListedAs xs1 ∧ tb2.ListedAs xs2 ∧ tb.ListedAs (xs1 ++ xs2) ∧ heap'.Shows m' ∧ heap2.Shows m' := by
  have hr0 := Timeboard.new_reads a heap m hm
  have hr1 := Timeboard.new_reads (a.before (f.unitStart i)) heap m hm
  by_cases hw : a.worktimeSource = "duration" ∨ a.worktimeSource = "labels"
  case neg =>
    have hv : ∀ b : Args L, b.worktimeSource = a.worktimeSource → b.layout = a.layout → b.read m = .error .valueError := by
      intro b g1 g2
      unfold Args.read
      rw [g2]
      generalize hla : a.layout = l at hl
      have : b.readLayout l m = .error .valueError := by
        unfold Args.readLayout
        rw [g1, if_pos (by constructor <;> intro g <;> exact hw (by simp [g]))]
      cases l with
      | label v => exact hl.elim
      | pattern p => cases p with
        | list xs => exact this
        | rp id => exact hl.elim
      | organizer c' es => exact this
      | organizerRP c' id => exact this
    rw [hv a rfl rfl] at hr0
    rw [hv (a.before (f.unitStart i)) rfl rfl] at hr1
    simp only at hr0 hr1
    rw [hr1]
    exact ⟨_, hr0, .inl rfl⟩
  case pos =>
    have hf1 : Frame.new (a.before (f.unitStart i)).freq (a.before (f.unitStart i)).start (a.before (f.unitStart i)).stop =
      .ok (f.part { first := 0, last := i - 1 }) := Frame.new_before hf b1
    have hf2 : Frame.new (a.startingAt (f.unitStart i)).freq (a.startingAt (f.unitStart i)).start (a.startingAt (f.unitStart i)).stop =
      .ok (f.part { first := i, last := (f.n : Int) - 1 }) := Frame.new_startingAt hf (by omega)
    have n1 : ((f.part { first := 0, last := i - 1 }).n : Int) = i := by unfold Frame.part; simp only; omega
    have n2 : ((f.part { first := i, last := (f.n : Int) - 1 }).n : Int) = (f.n : Int) - i := by unfold Frame.part; simp only; omega
    have p1 := Layout.read_part (f := f) a.defaultLabel { first := 0, last := i - 1 } a.layout hlev { first := 0, last := i - 1 } m
      ⟨Int.le_refl _, by simp only; omega, by simp only; omega⟩
    have p2 := fun m1 => Layout.read_part (f := f) a.defaultLabel { first := i, last := (f.n : Int) - 1 } a.layout hlev
      { first := 0, last := (f.n : Int) - i - 1 } m1 ⟨Int.le_refl _, by simp only; omega, by simp only; omega⟩
    have q1 : (({ first := 0, last := i - 1 } : Span).moved ({ first := 0, last := i - 1 } : Span).first) = { first := 0, last := i - 1 } := by
      unfold Span.moved; simp
    have q2 : (({ first := 0, last := (f.n : Int) - i - 1 } : Span).moved ({ first := i, last := (f.n : Int) - 1 } : Span).first) =
        { first := i, last := (f.n : Int) - 1 } := by
      unfold Span.moved; simp only [Int.zero_add]; congr 1; omega
    rw [q1] at p1
    simp only [q2] at p2
    have he0 := Args.read_turns a hl hw hf m
    rw [hread, p1] at he0
    have he1 := Args.read_turns (a.before (f.unitStart i)) hl hw hf1 m
    rw [n1] at he1
    rw [he0] at hr0
    rw [he1] at hr1
    rw [show (a.before (f.unitStart i)).defaultLabel = a.defaultLabel from rfl, show (a.before (f.unitStart i)).layout = a.layout from rfl,
      show (a.before (f.unitStart i)).amendments = a.amendments from rfl] at he1
    rw [show (a.before (f.unitStart i)).defaultLabel = a.defaultLabel from rfl, show (a.before (f.unitStart i)).layout = a.layout from rfl,
      show (a.before (f.unitStart i)).amendments = a.amendments from rfl] at hr1
    cases hl1 : Layout.read (f.part { first := 0, last := i - 1 }) a.defaultLabel a.layout { first := 0, last := i - 1 } m with
    | error e =>
      rw [hl1] at hr0 hr1
      simp only [thenRead, movedRead, Except.map] at hr0 hr1
      rw [hr1]
      exact ⟨e, hr0, .inl rfl⟩
    | ok r1 =>
      obtain ⟨ps, m1⟩ := r1
      rw [hl1] at hr0 hr1 he0 he1
      simp only [thenRead, movedRead, Except.map, p2] at hr0 hr1 he0 he1
      cases ha1 : amendPieces (f.part { first := 0, last := i - 1 }) a.amendments ps with
      | error e =>
        have he := amendPieces_error ha1
        subst he
        rw [ha1] at hr1
        simp only at hr1
        rw [hr1]
        simp only
        cases hl2 : Layout.read (f.part { first := i, last := (f.n : Int) - 1 }) a.defaultLabel a.layout { first := 0, last := (f.n : Int) - i - 1 } m1 with
        | error e => rw [hl2] at hr0; exact ⟨e, hr0, .inr trivial⟩
        | ok r2 =>
          rw [hl2] at hr0
          simp only [amendPieces_append] at hr0
          rw [amendPieces_part f { first := 0, last := i - 1 }, ha1] at hr0
          exact ⟨_, hr0, .inr trivial⟩
      | ok ps' =>
        rw [ha1] at hr1 he1
        obtain ⟨tb1, heap1, t1, t2, t3⟩ := hr1
        rw [t1]
        simp only
        have hr2 := Timeboard.new_reads (a.startingAt (f.unitStart i)) heap1 m1 t2
        have he2 := Args.read_turns (a.startingAt (f.unitStart i)) hl hw hf2 m1
        rw [n2] at he2
        rw [he2] at hr2
        rw [show (a.startingAt (f.unitStart i)).defaultLabel = a.defaultLabel from rfl, show (a.startingAt (f.unitStart i)).layout = a.layout from rfl,
          show (a.startingAt (f.unitStart i)).amendments = a.amendments from rfl] at he2
        rw [show (a.startingAt (f.unitStart i)).defaultLabel = a.defaultLabel from rfl, show (a.startingAt (f.unitStart i)).layout = a.layout from rfl,
          show (a.startingAt (f.unitStart i)).amendments = a.amendments from rfl] at hr2
        cases hl2 : Layout.read (f.part { first := i, last := (f.n : Int) - 1 }) a.defaultLabel a.layout { first := 0, last := (f.n : Int) - i - 1 } m1 with
        | error e =>
          rw [hl2] at hr0 hr2
          simp only at hr0 hr2
          rw [hr2]
          exact hr0
        | ok r2 =>
          obtain ⟨qs, m2⟩ := r2
          rw [hl2] at hr0 hr2 he0 he2
          simp only [amendPieces_append] at hr0 hr2 he0 he2
          rw [amendPieces_part f { first := 0, last := i - 1 }, ha1, amendPieces_part f { first := i, last := (f.n : Int) - 1 }] at hr0 he0
          cases ha2 : amendPieces (f.part { first := i, last := (f.n : Int) - 1 }) a.amendments qs with
          | error e =>
            rw [ha2] at hr0 hr2
            simp only [Except.map] at hr0 hr2
            rw [hr2]
            exact hr0
          | ok qs' =>
            rw [ha2] at hr0 hr2 he0 he2
            simp only [Except.map] at hr0 hr2 he0 he1 he2
            obtain ⟨tb2, heap2, u1, u2, u3⟩ := hr2
            obtain ⟨tb, heap', v1, v2, v3⟩ := hr0
            rw [u1]
            refine ⟨tb, heap', _, _, m2, v1, C98_list_read hm t1 he1, C98_list_read t2 u1 he2, ?_, v2, u2⟩
            have := C98_list_read hm v1 he0
            rw [List.map_append, List.map_map, List.map_map] at this
            have w1 : ∀ (y : Span) (zs : List (Piece L)),
                zs.map (Piece.shift f a.refEnd ∘ Piece.moved y.first) = zs.map (Piece.shift (f.part y) a.refEnd) := by
              intro y zs
              apply List.map_congr_left
              intro p _
              exact Piece.moved_shift f y a.refEnd p
            rw [w1 { first := 0, last := i - 1 }, w1 { first := i, last := (f.n : Int) - 1 }] at this
            exact this

/-- **C127.** A timeboard may be made up to the start of a span of its outermost organizer at which the turns of `structure` begin anew (any span,
if the structure is a RememberingPattern), and then from there on: the two timeboards together have the workshifts of the timeboard made at once,
and RememberingPatterns have handed out the same labels.  If one of the two cannot be made, neither can the whole: for the same reason, unless
the reason was that amendments to the first one collide. -/
theorem C127_two_goes (a : Args L) (heap : Heap L) (m : Memory L) (hm : heap.Shows m) {c : Cut} {k : Nat} {f : Frame} {ss : List Span} {x : Span}
    (hl : a.layout.TurnsAt k c) (hlev : a.layout.Level f) (hst : c.Anywhere a.freq) (hf : Frame.new a.freq a.start a.stop = .ok f)
    (hc : f.cut { first := 0, last := (f.n : Int) - 1 } c = .ok ss) (hk : 0 < k) (hx : ss[k]? = some x) :
    match Timeboard.new (a.before (f.unitStart x.first)) heap with
    | .error e => ∃ e', Timeboard.new a heap = .error e' ∧ (e' = e ∨ e = .keyError)
    | .ok (tb1, heap1) => match Timeboard.new (a.startingAt (f.unitStart x.first)) heap1 with
      | .error e => Timeboard.new a heap = .error e
      | .ok (tb2, heap2) => ∃ tb heap', ∃ xs1 xs2 : List (Shift L), ∃ m', Timeboard.new a heap = .ok (tb, heap') ∧
          tb1.ListedAs xs1 ∧ tb2.ListedAs xs2 ∧ tb.ListedAs (xs1 ++ xs2) ∧ heap'.Shows m' ∧ heap2.Shows m' := by
  have hn : 0 < f.n := Frame.new_valid hf
  have hff : f.freq = a.freq := by rw [Frame.new_ok_iff] at hf; rw [hf.2]
  have hwi : ({ first := 0, last := (f.n : Int) - 1 } : Span).Within f.n := ⟨Int.le_refl _, by simp only; omega, by simp only; omega⟩
  rw [← hff] at hst
  obtain ⟨b1, b2, _⟩ := Frame.cut_two hwi hst hc hk hx
  simp only at b1 b2
  exact Timeboard.new_two a heap m hm hl.isWhole hlev hf b1 b2 (Layout.read_two a.defaultLabel hl hwi hst hc hk hx m)

/-- **C127** for a layout which is a plain pattern: it may be taken up after any number of whole turns. -/
theorem C127_pattern (a : Args L) (heap : Heap L) (m : Memory L) (hm : heap.Shows m) {xs : List L} (hl : a.layout = .pattern (.list xs)) {f : Frame}
    (hf : Frame.new a.freq a.start a.stop = .ok f) {i : Nat} (hi : xs.length ∣ i) (h0 : 0 < i) (h1 : i < f.n) :
    match Timeboard.new (a.before (f.unitStart i)) heap with
    | .error e => ∃ e', Timeboard.new a heap = .error e' ∧ (e' = e ∨ e = .keyError)
    | .ok (tb1, heap1) => match Timeboard.new (a.startingAt (f.unitStart i)) heap1 with
      | .error e => Timeboard.new a heap = .error e
      | .ok (tb2, heap2) => ∃ tb heap', ∃ xs1 xs2 : List (Shift L), ∃ m', Timeboard.new a heap = .ok (tb, heap') ∧
          tb1.ListedAs xs1 ∧ tb2.ListedAs xs2 ∧ tb.ListedAs (xs1 ++ xs2) ∧ heap'.Shows m' ∧ heap2.Shows m' := by
  refine Timeboard.new_two a heap m hm (by rw [hl]; trivial) (by rw [hl]; unfold Layout.Level; trivial) hf (by omega) (by omega) ?_
  rw [hl]
  unfold Layout.read thenRead
  simp only [Int.lt_irrefl, if_false, Int.toNat_zero]
  rw [unitPieces_split a.defaultLabel xs 0 (i := (i : Int)) (s := { first := 0, last := (f.n : Int) - 1 }) (by simp only; omega) (by simp only; omega)]
  congr 3
  simp only [Int.sub_zero, Int.toNat_natCast, Nat.zero_add]
  obtain ⟨q, rfl⟩ := hi
  unfold unitPieces
  apply List.map_congr_left
  intro j _
  simp only [Nat.zero_add]
  unfold cyclic
  rw [Nat.mul_add_mod]

/-- **C127** for a layout which is one RememberingPattern: it may be taken up at any base unit. -/
theorem C127_remembering (a : Args L) (heap : Heap L) (m : Memory L) (hm : heap.Shows m) {id : Nat}
    (hl : a.layout = .organizer (.marks []) [.pattern (.rp id)]) {f : Frame}
    (hf : Frame.new a.freq a.start a.stop = .ok f) {i : Int} (h0 : 0 < i) (h1 : i < f.n) :
    match Timeboard.new (a.before (f.unitStart i)) heap with
    | .error e => ∃ e', Timeboard.new a heap = .error e' ∧ (e' = e ∨ e = .keyError)
    | .ok (tb1, heap1) => match Timeboard.new (a.startingAt (f.unitStart i)) heap1 with
      | .error e => Timeboard.new a heap = .error e
      | .ok (tb2, heap2) => ∃ tb heap', ∃ xs1 xs2 : List (Shift L), ∃ m', Timeboard.new a heap = .ok (tb, heap') ∧
          tb1.ListedAs xs1 ∧ tb2.ListedAs xs2 ∧ tb.ListedAs (xs1 ++ xs2) ∧ heap'.Shows m' ∧ heap2.Shows m' := by
  have hlev : (Layout.organizer (.marks []) [.pattern (.rp id)] : Layout L).Level f := by
    unfold Layout.Level Layout.LevelAll Layout.LevelAll Layout.Level
    exact ⟨fun t ht => (by cases ht), trivial, trivial⟩
  refine Timeboard.new_two a heap m hm (by rw [hl]; trivial) (by rw [hl]; exact hlev) hf h0 (by omega) ?_
  rw [hl, Layout.read_whole_one a.defaultLabel ⟨Int.le_refl _, by simp only; omega, by simp only; omega⟩,
    Layout.read_whole_one a.defaultLabel ⟨Int.le_refl _, by simp only; omega, by simp only; omega⟩]
  unfold thenRead
  have e2 : ∀ m1 : Memory L, Layout.read f a.defaultLabel (.organizer (.marks []) [.pattern (.rp id)]) { first := i, last := (f.n : Int) - 1 } m1 =
      Layout.read f a.defaultLabel (.pattern (.rp id)) { first := i, last := (f.n : Int) - 1 } m1 := fun m1 =>
    Layout.read_whole_one a.defaultLabel ⟨by simp only; omega, by simp only; omega, by simp only; omega⟩ _ _
  simp only [e2]
  unfold Layout.read
  simp only [Int.lt_irrefl, if_false, Int.toNat_zero, Nat.add_zero, Nat.zero_add]
  rw [unitPieces_split a.defaultLabel (m id).1 (m id).2 (i := i) (s := { first := 0, last := (f.n : Int) - 1 }) (by simp only; omega) (by simp only; omega),
    Memory.draw_draw]
  simp only [Memory.draw, if_true, Int.sub_zero, Int.sub_add_cancel]
  congr 5
  omega

/-- The workshift found at a time within one of those listed. -/
theorem Timeboard.ListedAs.view_of {tb : Timeboard L} {xs : List (Shift L)} (h : tb.ListedAs xs) (hv : tb.Valid) {x : Shift L} (hx : x ∈ xs) {t : Time}
    (h1 : x.start ≤ t) (h2 : t ≤ x.stop) : ∃ w, tb.getWorkshift t = .ok w ∧ w.view tb = some x := by
  obtain ⟨k, hk⟩ := List.mem_iff_getElem?.1 hx
  obtain ⟨w, w1, w2, w3, w4, w5, w6⟩ := h.2 k x hk
  have hlt : k < xs.length := by
    rcases Nat.lt_or_ge k xs.length with h' | h'
    · exact h'
    · rw [List.getElem?_eq_none h'] at hk; cases hk
  have hl : (k : Int) < tb.timeline.len := by rw [h.1]; omega
  obtain ⟨w', hw', _, _, _, g1, g2, _, _⟩ := Workshift.exists_of_range hv none (by omega : (0 : Int) ≤ k) hl
  cases Workshift.ext_new w1 hw'
  have q1 := w2
  have q2 := w3
  rw [g1] at q1
  rw [g2] at q2
  simp only [Except.ok.injEq] at q1 q2
  have hp : tb.timeline.wsPosition t = .ok (k : Int) := (hv.wf.wsPosition_ok_iff t k).2 ⟨by omega, hl, by omega, by omega⟩
  refine ⟨w, by rw [hv.getWorkshift_of_within hp]; exact w1, ?_⟩
  unfold Workshift.view
  rw [w2, w3, w4, w5, w6]

/-- Every time of the timeboard is in one of the workshifts listed, which are within the timeboard. -/
theorem Timeboard.ListedAs.shift_at {tb : Timeboard L} {xs : List (Shift L)} (h : tb.ListedAs xs) (hv : tb.Valid) {t : Time}
    (h1 : tb.startTime ≤ t) (h2 : t ≤ tb.endTime) : ∃ x ∈ xs, x.start ≤ t ∧ t ≤ x.stop ∧ tb.startTime ≤ x.start ∧ x.stop ≤ tb.endTime := by
  rcases hv.locate_none t with ⟨k, hk, _⟩ | ⟨h3, _⟩ | ⟨h3, _⟩
  · obtain ⟨k0, k1, k2, k3⟩ := (hv.wf.wsPosition_ok_iff t k).1 hk
    have b1 := hv.wf.bnd_range k0 k1
    have b2 := hv.wf.bnd_succ_range k0 k1
    have c1 : tb.startTime ≤ tb.timeline.frame.unitStart (tb.timeline.bnd k) := Frame.unitStart_monotone b1.1
    have c2 : tb.timeline.frame.unitStart (tb.timeline.bnd (k + 1)) ≤ tb.endTime + 1 := by
      have := Frame.unitStart_monotone (f := tb.timeline.frame) b2.2
      have e : tb.endTime = tb.timeline.frame.unitStart tb.timeline.frame.n - 1 := Frame.endTime_next _
      omega
    obtain ⟨n, rfl⟩ := Int.eq_ofNat_of_zero_le k0
    have hlt : n < xs.length := by rw [h.1] at k1; omega
    refine ⟨xs[n], List.getElem_mem hlt, ?_⟩
    obtain ⟨w, w1, w2, w3, _⟩ := h.2 n xs[n] (List.getElem?_eq_getElem hlt)
    obtain ⟨w', hw', _, _, _, g1, g2, _, _⟩ := Workshift.exists_of_range hv none k0 k1
    cases Workshift.ext_new w1 hw'
    rw [g1] at w2
    rw [g2] at w3
    simp only [Except.ok.injEq] at w2 w3
    omega
  · omega
  · omega

theorem Timeboard.new_ends {a : Args L} {heap heap' : Heap L} {tb : Timeboard L} (h : Timeboard.new a heap = .ok (tb, heap')) {f : Frame}
    (hf : Frame.new a.freq a.start a.stop = .ok f) : tb.startTime = f.unitStart 0 ∧ tb.endTime = f.unitEnd ((f.n : Int) - 1) := by
  obtain ⟨org, f', tl0, tl, _, _, hf', ht, ha, rfl⟩ := Timeboard.new_ok_iff.1 h
  rw [hf] at hf'
  cases hf'
  have e1 := (Timeline.amend_frame ha).1
  have e2 := (Timeline.new_wf (Frame.new_valid hf) ht).2.1
  unfold Timeboard.startTime Timeboard.endTime
  simp only
  rw [e1, e2]
  exact ⟨rfl, rfl⟩

/-- **C127**, all that can be asked: the timeboard made at once agrees with each of the two on the time of each (which is what C112 needs), and
these times follow one another. -/
theorem C127_agrees {a : Args L} {heap heap' heap1 heap2 : Heap L} {m : Memory L} (hm : heap.Shows m) {c : Cut} {k : Nat} {f : Frame} {ss : List Span}
    {x : Span} (hl : a.layout.TurnsAt k c) (hlev : a.layout.Level f) (hst : c.Anywhere a.freq) (hf : Frame.new a.freq a.start a.stop = .ok f)
    (hc : f.cut { first := 0, last := (f.n : Int) - 1 } c = .ok ss) (hk : 0 < k) (hx : ss[k]? = some x) {tb tb1 tb2 : Timeboard L}
    (h : Timeboard.new a heap = .ok (tb, heap')) (h1 : Timeboard.new (a.before (f.unitStart x.first)) heap = .ok (tb1, heap1))
    (h2 : Timeboard.new (a.startingAt (f.unitStart x.first)) heap1 = .ok (tb2, heap2)) :
    tb.startTime = tb1.startTime ∧ tb1.endTime + 1 = f.unitStart x.first ∧ tb2.startTime = f.unitStart x.first ∧ tb2.endTime = tb.endTime ∧
    tb.AgreesOn tb1 tb1.startTime tb1.endTime ∧ tb.AgreesOn tb2 tb2.startTime tb2.endTime := by
  have hT := C127_two_goes a heap m hm hl hlev hst hf hc hk hx
  rw [h1] at hT
  simp only at hT
  rw [h2] at hT
  obtain ⟨tb', _, xs1, xs2, _, t1, t2, t3, t4, _⟩ := hT
  rw [h] at t1
  cases t1
  have hn : 0 < f.n := Frame.new_valid hf
  have hff : f.freq = a.freq := by rw [Frame.new_ok_iff] at hf; rw [hf.2]
  have hwi : ({ first := 0, last := (f.n : Int) - 1 } : Span).Within f.n := ⟨Int.le_refl _, by simp only; omega, by simp only; omega⟩
  rw [← hff] at hst
  obtain ⟨b1, b2, _⟩ := Frame.cut_two hwi hst hc hk hx
  simp only at b1 b2
  have n1 : ((f.part { first := 0, last := x.first - 1 }).n : Int) = x.first := by unfold Frame.part; simp only; omega
  have n2 : ((f.part { first := x.first, last := (f.n : Int) - 1 }).n : Int) = (f.n : Int) - x.first := by unfold Frame.part; simp only; omega
  obtain ⟨e1, e2⟩ := Timeboard.new_ends h hf
  obtain ⟨e3, e4⟩ := Timeboard.new_ends h1 (Frame.new_before hf b1)
  obtain ⟨e5, e6⟩ := Timeboard.new_ends h2 (Frame.new_startingAt hf (by omega))
  rw [Frame.part_unitStart] at e3 e5
  rw [Frame.part_unitEnd] at e4 e6
  rw [n1] at e4
  rw [n2] at e6
  simp only [Int.zero_add, Int.add_zero] at e3 e4 e5
  rw [Frame.unitEnd_eq, Int.sub_add_cancel] at e4
  rw [show (f.n : Int) - x.first - 1 + x.first = (f.n : Int) - 1 by omega] at e6
  have hv := (Timeboard.Reachable.new h).valid
  have hv1 := (Timeboard.Reachable.new h1).valid
  have hv2 := (Timeboard.Reachable.new h2).valid
  have l1 : f.unitStart 0 < f.unitStart x.first := Frame.unitStart_lt b1
  have l2 : f.unitStart x.first ≤ f.unitEnd ((f.n : Int) - 1) := by
    have := Frame.unitStart_lt (f := f) (i := x.first) (j := (f.n : Int) - 1 + 1) (by omega)
    rw [Frame.unitEnd_eq]; omega
  refine ⟨by omega, by omega, by omega, by omega, ⟨by omega, ?_⟩, ⟨by omega, ?_⟩⟩
  · intro t g1 g2
    obtain ⟨y, y1, y2, y3, y4, y5⟩ := t2.shift_at hv1 g1 g2
    obtain ⟨w, w1, w2⟩ := t4.view_of hv (List.mem_append_left _ y1) y2 y3
    obtain ⟨w', w3, w4⟩ := t2.view_of hv1 y1 y2 y3
    exact ⟨w, w', y, w1, w3, w2, w4, y4, y5⟩
  · intro t g1 g2
    obtain ⟨y, y1, y2, y3, y4, y5⟩ := t3.shift_at hv2 g1 g2
    obtain ⟨w, w1, w2⟩ := t4.view_of hv (List.mem_append_right _ y1) y2 y3
    obtain ⟨w', w3, w4⟩ := t3.view_of hv2 y1 y2 y3
    exact ⟨w, w', y, w1, w3, w2, w4, y4, y5⟩

/-- The two timeboards and the one made at once, with the start times and labels of all workshifts. -/
def inTwoGoes (a : Args Int) (t : Time) (heap : Heap Int) : Except Err (List (Seen Int) × List (Seen Int) × List (Seen Int)) :=
  match Timeboard.new (a.before t) heap with
  | .error e => .error e
  | .ok (tb1, heap1) => match Timeboard.new (a.startingAt t) heap1, Timeboard.new a heap with
    | .ok (tb2, _), .ok (tb, _) => match allShifts tb1, allShifts tb2, allShifts tb with
      | .ok x, .ok y, .ok z => .ok (x, y, z)
      | _, _, _ => .error .valueError
    | _, _ => .error .valueError

/-- The seasons of `nestedArgs` with two amendments, one in each part; and a third outside. -/
def seasonsAmended : Args Int := { nestedArgs with amendments := [(date 2016 4 25, 7), (date 2016 9 20, 8), (date 2020 1 1, 9)] }

-- the hypotheses are met: the third season is the first one of a turn, ...
example : ∃ f ss, Frame.new seasonsAmended.freq seasonsAmended.start seasonsAmended.stop = .ok f ∧
    seasonsAmended.layout.TurnsAt 2 (.marker (offsetMarker fA [{ months := 4 }, { months := 8, days := 15 }])) ∧ seasonsAmended.layout.Level f ∧
    Cut.Anywhere seasonsAmended.freq (.marker (offsetMarker fA [{ months := 4 }, { months := 8, days := 15 }])) ∧
    f.cut { first := 0, last := (f.n : Int) - 1 } (.marker (offsetMarker fA [{ months := 4 }, { months := 8, days := 15 }])) = .ok ss ∧
    (ss[2]?).map (fun x => f.unitStart x.first) = some (date 2016 9 16) := by
  have hr : (offsetMarker fW [{ days := 2 }]).Regular fD := (C75_offset_marks (bu := fD) (each := fW) (offs := [{ days := 2 }]) (by decide) (by decide) (by simp) (by decide)).1
  have hr2 : (offsetMarker fA [{ months := 4 }, { months := 8, days := 15 }]).Regular fD :=
    (C75_offset_marks (bu := fD) (each := fA) (offs := [{ months := 4 }, { months := 8, days := 15 }]) (by decide) (by decide) (by simp) (by decide)).1
  refine ⟨{ freq := fD, o0 := dayOf (date 2016 4 20), n := 166 }, _, by decide +kernel, ⟨rfl, ⟨1, rfl⟩⟩, ?_, .inr hr2, rfl, by decide +kernel⟩
  unfold seasonsAmended nestedArgs Layout.Level
  refine ⟨(C104_level _).2 _ hr2 rfl, ?_⟩
  simp only [Layout.Level, Layout.LevelAll, (C104_level _).1, and_true, true_and]
  exact (C104_level _).2 _ hr rfl
-- ... and the timeboard up to 15 September and that from 16 September make up the whole
example : (inTwoGoes seasonsAmended (date 2016 9 16) heap0).map (fun r => (r.1.length, r.2.1.length, decide (r.1 ++ r.2.1 = r.2.2))) = .ok (49, 17, true) := by
  decide +kernel

/-- Weeks with labels in turns. -/
def turnsArgs (l : Layout Int) : Args Int where
  freq := fD
  start := date 2017 1 4
  stop := date 2017 2 12
  layout := l
  selector := fun l => l != 0
  defaultLabel := 0

/-- **C127**, why the turns of `structure` have to begin anew: taken up at the second week, the labels start with the first one again. -/
theorem C127_negation_turns :
    (inTwoGoes (turnsArgs (.organizer (.marker ⟨fW, []⟩) [.label 1, .label 2])) (date 2017 1 9) heap0).map
      (fun r => (r.1.map Seen.label, r.2.1.map Seen.label, r.2.2.map Seen.label)) = .ok ([1], [1, 2, 1, 2, 1], [1, 2, 1, 2, 1, 2]) ∧
    (inTwoGoes (turnsArgs (.organizer (.marker ⟨fW, []⟩) [.label 1, .label 2])) (date 2017 1 16) heap0).map
      (fun r => (r.1.map Seen.label, r.2.1.map Seen.label, r.2.2.map Seen.label)) = .ok ([1, 2], [1, 2, 1, 2], [1, 2, 1, 2, 1, 2]) := by
  decide +kernel

-- a RememberingPattern goes on where it was left, at any week
example : (inTwoGoes (turnsArgs (.organizerRP (.marker ⟨fW, []⟩) 0)) (date 2017 1 9) (heap0.set 0 (Cycle.start [1, 2, 3]))).map
      (fun r => (r.1.map Seen.label, r.2.1.map Seen.label, r.2.2.map Seen.label)) = .ok ([1], [2, 3, 1, 2, 3], [1, 2, 3, 1, 2, 3]) := by
  decide +kernel

/-- **C127**, why points must be made for each calendar period on its own: with a multiplied frequency they depend on the start. -/
theorem C127_negation_multiplied :
    (inTwoGoes { turnsArgs (.organizer (.marker (offsetMarker { fM with factor := some 2, pos := by decide } [{ days := 0 }])) [.label 1]) with stop := date 2017 12 31 } (date 2017 5 1) heap0).map
      (fun r => decide (r.1 ++ r.2.1 = r.2.2)) = .ok false := by
  decide +kernel

end TB
