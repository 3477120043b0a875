import Verif.Lemmas.Rota
import Verif.Props.Reading
import Verif.Props.Roll
/-! Property C108: a rota is fair. -/
namespace TB
open TB.Ex
variable {L : Type}

theorem Timeboard.ConsistsOf.rota {tb : Timeboard L} {f : Frame} {ps : List (Piece L)} (h : tb.ConsistsOf f ps) {xs : List L} {p : Nat} (hx : xs ≠ [])
    (hp : ∀ (k : Nat) (x : Piece L), ps[k]? = some x → cyclic xs (p + k) = some x.label) : tb.Rota xs p := by
  obtain ⟨_, h2, h3⟩ := h
  refine ⟨hx, fun k hk => ?_⟩
  have hk' : k < ps.length := by omega
  obtain ⟨w, w1, _, _, _, w2⟩ := h3 k _ (List.getElem?_eq_getElem hk')
  exact ⟨w, w1, by rw [w2]; exact hp k _ (List.getElem?_eq_getElem hk')⟩

theorem amendPieces_none (f : Frame) (ps : List (Piece L)) : amendPieces f [] ps = .ok ps := by
  unfold amendPieces
  rw [if_neg (by simp [Piece.hits])]
  simp [Piece.hits]

theorem Args.read_plain {a : Args L} {m m' : Memory L} {f : Frame} {ps : List (Piece L)} (h : a.read m = .ok (f, ps, m')) (ham : a.amendments = []) :
    Layout.read f a.defaultLabel a.layout { first := 0, last := (f.n : Int) - 1 } m = .ok (ps, m') := by
  have key : a.readLayout a.layout m = .ok (f, ps, m') := by
    unfold Args.read at h
    generalize a.layout = lay at *
    cases lay with
    | label l => cases h
    | pattern s => cases s with
      | list xs => exact h
      | rp id => cases h
    | organizer c es => exact h
    | organizerRP c id => exact h
  unfold Args.readLayout at key
  split at key
  · cases key
  · cases hf : a.frame with
    | error e => rw [hf] at key; cases key
    | ok g =>
      rw [hf] at key
      simp only at key
      cases hl : Layout.read g a.defaultLabel a.layout { first := 0, last := (g.n : Int) - 1 } m with
      | error e => rw [hl] at key; cases key
      | ok r =>
        obtain ⟨qs, m1⟩ := r
        rw [hl, ham] at key
        simp only [amendPieces_none] at key
        cases key
        exact hl

theorem unitPieces_labels {dl : L} {xs : List L} (hx : xs ≠ []) {p : Nat} {s : Span} {k : Nat} {x : Piece L} (h : (unitPieces dl xs p s)[k]? = some x) :
    cyclic xs (p + k) = some x.label := by
  unfold unitPieces at h
  rw [List.getElem?_map, Option.map_eq_some_iff] at h
  obtain ⟨i, h1, rfl⟩ := h
  rw [List.getElem?_eq_some_iff] at h1
  obtain ⟨h1, h2⟩ := h1
  rw [List.getElem_range] at h2
  subst h2
  obtain ⟨l, hl⟩ := cyclic_some hx (p + k)
  simp [hl]

theorem spanPieces_labels {dl : L} {xs : List L} (hx : xs ≠ []) {p : Nat} {ss : List Span} {k : Nat} {x : Piece L} (h : (spanPieces dl xs p ss)[k]? = some x) :
    cyclic xs (p + k) = some x.label := by
  unfold spanPieces at h
  rw [List.getElem?_map, Option.map_eq_some_iff] at h
  obtain ⟨i, h1, rfl⟩ := h
  rw [List.getElem?_zipIdx, Option.map_eq_some_iff] at h1
  obtain ⟨_, _, rfl⟩ := h1
  obtain ⟨l, hl⟩ := cyclic_some hx (p + k)
  simp [hl]

theorem readAll_labels (f : Frame) (dl : L) (xs : List L) : Layout.readAll f dl (xs.map .label) =
    xs.map (fun l => (fun s m => .ok ([{ first := s.first, last := s.last, label := l }], m) : Reader L)) := by
  induction xs with
  | nil => rfl
  | cons x xs ih => simp only [List.map_cons, Layout.readAll, Layout.read, ih]

theorem cyclic_map' {α β : Type} (g : α → β) (xs : List α) (n : Nat) : cyclic (xs.map g) n = (cyclic xs n).map g := by
  unfold cyclic; simp

theorem readInTurns_labels {xs : List L} (hx : xs ≠ []) (m : Memory L) : ∀ (ss : List Span) (n : Nat),
    ∃ ps, readInTurns (xs.map (fun l => (fun s m => .ok ([{ first := s.first, last := s.last, label := l }], m) : Reader L))) n ss m = .ok (ps, m) ∧
      ∀ (k : Nat) (x : Piece L), ps[k]? = some x → cyclic xs (n + k) = some x.label := by
  intro ss
  induction ss with
  | nil => intro n; exact ⟨[], rfl, by simp⟩
  | cons s ss ih =>
    intro n
    obtain ⟨ps, h1, h2⟩ := ih (n + 1)
    obtain ⟨l, hl⟩ := cyclic_some hx n
    refine ⟨{ first := s.first, last := s.last, label := l } :: ps, ?_, ?_⟩
    · rw [readInTurns, cyclic_map', hl]
      simp only [Option.map_some]
      rw [h1]
      rfl
    · intro k x hk
      cases k with
      | zero => simp only [List.getElem?_cons_zero, Option.some.injEq] at hk; subst hk; exact hl
      | succ k =>
        rw [List.getElem?_cons_succ] at hk
        have := h2 k x hk
        rwa [Nat.add_assoc, Nat.add_comm 1] at this

/-- **C108**, rotas: labels follow each other in turn if the layout is a pattern, an Organizer whose structure is a list of labels, or one
whose structure is a RememberingPattern, and there are no amendments. -/
theorem C108_rotas {a : Args L} {heap heap' : Heap L} {m : Memory L} {tb : Timeboard L} (hm : heap.Shows m)
    (h : Timeboard.new a heap = .ok (tb, heap')) (ham : a.amendments = []) {xs : List L} (hx : xs ≠ []) :
    (a.layout = .pattern (.list xs) → tb.Rota xs 0) ∧
    (∀ cut, a.layout = .organizer cut (xs.map .label) → tb.Rota xs 0) ∧
    (∀ cut id p, a.layout = .organizerRP cut id → m id = (xs, p) → tb.Rota xs p) := by
  obtain ⟨f, ps, m', h1, _, h2⟩ := C97_read_back hm h
  have h3 := Args.read_plain h1 ham
  refine ⟨fun hl => ?_, fun cut hl => ?_, fun cut id p hl hid => ?_⟩
  · rw [hl, Layout.read] at h3
    simp only [if_neg (show ¬ ((0 : Int) < 0) by omega), Except.ok.injEq, Prod.mk.injEq] at h3
    apply h2.rota hx
    intro k x hk
    rw [← h3.1] at hk
    exact unitPieces_labels hx hk
  · rw [hl, Layout.read] at h3
    have hne : (xs.map (Layout.label (L := L))).isEmpty = false := by cases xs with | nil => exact absurd rfl hx | cons x xs => rfl
    simp only [hne, Bool.false_eq_true, if_false] at h3
    cases hcut : f.cut { first := 0, last := (f.n : Int) - 1 } cut with
    | error e => rw [hcut] at h3; cases h3
    | ok ss =>
      rw [hcut, readAll_labels] at h3
      simp only at h3
      obtain ⟨qs, q1, q2⟩ := readInTurns_labels hx m ss 0
      rw [q1] at h3
      simp only [Except.ok.injEq, Prod.mk.injEq] at h3
      apply h2.rota hx
      rw [← h3.1]
      exact q2
  · rw [hl, Layout.read] at h3
    have hne : xs.isEmpty = false := by cases xs with | nil => exact absurd rfl hx | cons x xs => rfl
    simp only [hid, hne, Bool.false_eq_true, if_false] at h3
    cases hcut : f.cut { first := 0, last := (f.n : Int) - 1 } cut with
    | error e => rw [hcut] at h3; cases h3
    | ok ss =>
      rw [hcut] at h3
      simp only [Except.ok.injEq, Prod.mk.injEq] at h3
      apply h2.rota hx
      intro k x hk
      rw [← h3.1] at hk
      exact spanPieces_labels hx hk

/-- **C108**, the ready-made calendars without amendments are rotas of seven labels. -/
theorem C108_weeks {c : Calendar} (hc : Preconfigured c) {cs ce : Option Time} {oc : Bool}
    {custom : Option (List (Time × Int))} {heap : Heap Int} {tb : Timeboard Int} (h : c.new cs ce true oc custom heap = .ok tb) :
    tb.Rota [8, 8, 8, 8, 8, 0, 0] (weekday (dayOf tb.startTime)).toNat := by
  obtain ⟨hr, _, _⟩ := hc.facts h
  have hv := hr.valid
  refine ⟨by simp, fun k hk => ?_⟩
  obtain ⟨w, w1, w2, _, w3, _⟩ := Workshift.exists_of_range hv none (k := k) (by omega) hk
  refine ⟨w, w1, ?_⟩
  have q := hc.label_at h (k := k) (by omega) hk
  have hin : tb.Within ((dayOf tb.startTime + k) * nsDay) := by
    refine Classical.byContradiction fun hn => ?_
    have := (C02_get_workshift hr ((dayOf tb.startTime + k) * nsDay) none).2 hn
    simp only [labelAt, Bind.bind, Except.bind, this, w3] at q
    cases q
  rw [C53_do_not_amend hc h _ hin.1 hin.2, w3, dayOf_mul] at q
  simp only [Except.ok.injEq] at q
  rw [← q]
  unfold cyclic weekday
  have e : ((((dayOf tb.startTime + 3) % 7).toNat + k) % 7 : Nat) = ((dayOf tb.startTime + k + 3) % 7).toNat := by omega
  simp only [List.length_cons, List.length_nil, Nat.reduceAdd]
  rw [e]
  have hr : ((dayOf tb.startTime + k + 3) % 7).toNat < 7 := by omega
  have hc' : ((((dayOf tb.startTime + k + 3) % 7).toNat : Nat) : Int) = (dayOf tb.startTime + k + 3) % 7 := by omega
  rw [← hc']
  generalize ((dayOf tb.startTime + k + 3) % 7).toNat = r at hr
  match r, hr with
  | 0, _ => rfl
  | 1, _ => rfl
  | 2, _ => rfl
  | 3, _ => rfl
  | 4, _ => rfl
  | 5, _ => rfl
  | 6, _ => rfl

theorem rat_natCast_sum_indicator {α : Type} (g : α → Bool) (xs : List α) : (xs.map (fun l => if g l then (1 : Rat) else 0)).sum = ((xs.filter g).length : Nat) := by
  rw [← rat_sum_filter, ← rat_length]; rfl

theorem Timeboard.amount_one {tb : Timeboard L} (hv : tb.Valid) (g : L → Bool) {k : Int} (h0 : 0 ≤ k) (h1 : k < tb.timeline.len) :
    tb.amount (fun _ _ => 1) k = 1 := by
  obtain ⟨l, h⟩ := hv.wf.label_eq h0 h1
  unfold Timeboard.amount
  rw [h]

/-- The number of positions with the duty. -/
theorem Timeboard.Rota.positions {tb : Timeboard L} {xs : List L} {p : Nat} (h : tb.Rota xs p) (hv : tb.Valid) (sel : L → Bool) (d : Duty) {lo hi : Int} {n : Nat}
    (h0 : 0 ≤ lo) (hn : (hi + 1 - lo).toNat = n) (h1 : hi < tb.timeline.len) :
    (((tb.dutyPositions sel d lo hi).length : Nat) : Rat) = turnSum xs (fun l => if dutyMatches d sel l then 1 else 0) (p + lo.toNat) n := by
  rw [← h.sum hv _ h0 hn h1, ← tb.amount_positions sel d lo hi (fun _ _ => 1)]
  have e : (tb.dutyPositions sel d lo hi).map (tb.amount (fun _ _ => 1)) = (tb.dutyPositions sel d lo hi).map (fun _ => (1 : Rat)) := by
    apply List.map_congr_left
    intro k hk
    unfold Timeboard.dutyPositions at hk
    rw [List.mem_filter, mem_intRange] at hk
    exact tb.amount_one hv (fun _ => true) (by omega) (by omega)
  rw [e, ← rat_length]; rfl

theorem Interval.Fine.len_toNat {tb : Timeboard L} {v : Interval L} (fv : v.Fine tb) : (v.hi + 1 - v.lo).toNat = v.len.toNat ∧ 0 ≤ v.len := by
  have := fv.len_eq
  rw [length_intRange] at this
  omega

/-- What is counted in an interval of a rota. -/
theorem Timeboard.Rota.amounts {tb : Timeboard L} {xs : List L} {p : Nat} (h : tb.Rota xs p) (hr : tb.Reachable) {v : Interval L} (hi : tb.HasInterval v)
    {s : Option (Schedule L)} (hs : tb.OwnsOpt s) {d : Duty} (hd : d = .on ∨ d = .off ∨ d = .any) :
    (∃ n : Nat, v.count tb d s = .ok n ∧
      (n : Rat) = turnSum xs (fun l => if dutyMatches d (s.getD v.schedule).selector l then 1 else 0) (p + v.lo.toNat) v.len.toNat) ∧
    (tb.worktimeSource = "labels" → ∀ (num : L → Option Rat) (q : L → Rat), (∀ l, num l = some (q l)) → v.worktime tb num d s =
      .ok (turnSum xs (fun l => if dutyMatches d (s.getD v.schedule).selector l then q l else 0) (p + v.lo.toNat) v.len.toNat)) := by
  have hv := hr.valid
  have fv := hi.fine hv
  have h0 := fv.nonneg
  have h1 := fv.lt
  have hl := fv.len_toNat
  refine ⟨⟨_, fv.count_eq hv hs hd, h.positions hv _ d h0.1 hl.1 h1.2⟩, fun hw num q hq => ?_⟩
  rw [worktime_amounts hr hi hs hq hd]
  simp only [hw, if_true]
  rw [h.sum hv _ h0.1 hl.1 h1.2]

/-- **C108**, whole turns: an interval of `m` times as many workshifts as there are labels in a turn has `m` times the workshifts on duty
which one turn has, and `m` times the work time, wherever it begins. -/
theorem C108_whole_turns {tb : Timeboard L} {xs : List L} {p : Nat} (h : tb.Rota xs p) (hr : tb.Reachable) {v : Interval L} (hi : tb.HasInterval v)
    {s : Option (Schedule L)} (hs : tb.OwnsOpt s) {d : Duty} (hd : d = .on ∨ d = .off ∨ d = .any) (m : Nat) (hm : v.len = m * xs.length) :
    v.count tb d s = .ok (m * (xs.filter (dutyMatches d (s.getD v.schedule).selector)).length) ∧
    (tb.worktimeSource = "labels" → ∀ (num : L → Option Rat) (q : L → Rat), (∀ l, num l = some (q l)) → v.worktime tb num d s =
      .ok (m * ((xs.filter (dutyMatches d (s.getD v.schedule).selector)).map q).sum)) := by
  obtain ⟨⟨n, h1, h2⟩, h3⟩ := h.amounts hr hi hs hd
  have e : v.len.toNat = m * xs.length := by omega
  rw [e, turnSum_turns, rat_natCast_sum_indicator, ← Rat.natCast_mul, Rat.natCast_inj] at h2
  refine ⟨by rw [h1, h2]; push_cast; rfl, fun hw num q hq => ?_⟩
  rw [h3 hw num q hq, e, turnSum_turns, rat_sum_filter]

/-- **C108**, fairness: an interval of any length has the workshifts on duty of the whole turns in it, and at most those of one turn more. -/
theorem C108_fair {tb : Timeboard L} {xs : List L} {p : Nat} (h : tb.Rota xs p) (hr : tb.Reachable) {v : Interval L} (hi : tb.HasInterval v)
    {s : Option (Schedule L)} (hs : tb.OwnsOpt s) {d : Duty} (hd : d = .on ∨ d = .off ∨ d = .any) {c : Nat}
    (hc : (xs.filter (dutyMatches d (s.getD v.schedule).selector)).length = c) :
    ∃ n, v.count tb d s = .ok n ∧ v.len / xs.length * c ≤ n ∧ n ≤ (v.len / xs.length + 1) * c := by
  obtain ⟨⟨n, h1, h2⟩, _⟩ := h.amounts hr hi hs hd
  obtain ⟨b1, b2⟩ := turnSum_bounds xs (f := fun l => if dutyMatches d (s.getD v.schedule).selector l then (1 : Rat) else 0)
    (by intro l; split <;> grind) (p + v.lo.toNat) v.len.toNat h.1
  rw [rat_natCast_sum_indicator, hc, ← h2] at b1 b2
  have c1 : v.len.toNat / xs.length * c ≤ n := by
    rw [← Rat.natCast_mul] at b1; exact Rat.natCast_le_natCast.1 b1
  have c2 : n ≤ (v.len.toNat / xs.length + 1) * c := by
    rw [← Rat.natCast_le_natCast]; push_cast; exact b2
  have e : v.len = (v.len.toNat : Nat) := by have := (hi.fine hr.valid).len_toNat; omega
  refine ⟨n, h1, ?_, ?_⟩
  · rw [e, ← Int.natCast_ediv, ← Int.natCast_mul]; exact Int.ofNat_le.2 c1
  · rw [e, ← Int.natCast_ediv]; exact_mod_cast c2

/-- **C108**, teams which have the same number of turns differ by at most that number in any interval. -/
theorem C108_even {tb : Timeboard L} {xs : List L} {p : Nat} (h : tb.Rota xs p) (hr : tb.Reachable) {v : Interval L} (hi : tb.HasInterval v)
    {s s' : Schedule L} (hs : tb.Owns s) (hs' : tb.Owns s') {c : Nat} (hc : (xs.filter s.selector).length = c) (hc' : (xs.filter s'.selector).length = c) :
    ∃ n n', v.count tb .on (some s) = .ok n ∧ v.count tb .on (some s') = .ok n' ∧ n - n' ≤ c ∧ n' - n ≤ c := by
  have o : tb.OwnsOpt (some s) := by intro x hx; cases hx; exact hs
  have o' : tb.OwnsOpt (some s') := by intro x hx; cases hx; exact hs'
  obtain ⟨n, n1, n2, n3⟩ := C108_fair h hr hi o (d := .on) (.inl rfl) (c := c) hc
  obtain ⟨n', n1', n2', n3'⟩ := C108_fair h hr hi o' (d := .on) (.inl rfl) (c := c) hc'
  rw [Int.add_mul] at n3 n3'
  exact ⟨n, n', n1, n1', by omega, by omega⟩

/-- The number of positions with the duty in at most `j` turns. -/
theorem Timeboard.Rota.positions_turns {tb : Timeboard L} {xs : List L} {p : Nat} (h : tb.Rota xs p) (hv : tb.Valid) (sel : L → Bool) (d : Duty) {lo hi : Int} {j : Nat}
    (h0 : 0 ≤ lo) (h1 : hi < tb.timeline.len) :
    (hi + 1 - lo ≤ (j * xs.length : Nat) → (tb.dutyPositions sel d lo hi).length ≤ j * (xs.filter (dutyMatches d sel)).length) ∧
    (hi + 1 - lo = (j * xs.length : Nat) → (tb.dutyPositions sel d lo hi).length = j * (xs.filter (dutyMatches d sel)).length) := by
  have e := h.positions hv sel d h0 (n := (hi + 1 - lo).toNat) rfl h1
  refine ⟨fun hle => ?_, fun hle => ?_⟩
  · have := turnSum_mono xs (f := fun l => if dutyMatches d sel l then (1 : Rat) else 0) (by intro l; split <;> grind) (p + lo.toNat)
      (show (hi + 1 - lo).toNat ≤ j * xs.length by omega)
    rw [← e, turnSum_turns, rat_natCast_sum_indicator, ← Rat.natCast_mul, Rat.natCast_le_natCast] at this
    exact this
  · rw [show (hi + 1 - lo).toNat = j * xs.length by omega, turnSum_turns, rat_natCast_sum_indicator, ← Rat.natCast_mul, Rat.natCast_inj] at e
    exact e

/-- The duty is the same a number of turns later or earlier. -/
theorem Timeboard.Rota.dutyAt_turns {tb : Timeboard L} {xs : List L} {p : Nat} (h : tb.Rota xs p) (hv : tb.Valid) {s : Schedule L} {d : Duty} {k : Int} {j : Nat}
    (h0 : 0 ≤ k) (h1 : k + (j * xs.length : Nat) < tb.timeline.len) : tb.DutyAt s d (k + (j * xs.length : Nat)) ↔ tb.DutyAt s d k := by
  rw [hv.dutyAt_iff, hv.dutyAt_iff]
  obtain ⟨l, l1, l2⟩ := h.label hv (k := k.toNat) (by omega)
  obtain ⟨l', l1', l2'⟩ := h.label hv (k := k.toNat + j * xs.length) (by omega)
  rw [← Nat.add_assoc, cyclic_periods, l2] at l2'
  cases l2'
  rw [show ((k.toNat : Nat) : Int) = k by omega] at l1
  rw [show ((k.toNat + j * xs.length : Nat) : Int) = k + (j * xs.length : Nat) by omega] at l1'
  rw [l1, l1']
  constructor
  · rintro ⟨_, _, x⟩; exact ⟨h0, by omega, x⟩
  · rintro ⟨_, _, x⟩; exact ⟨by omega, h1, x⟩

theorem Timeboard.Rota.some_duty {tb : Timeboard L} {xs : List L} {p : Nat} (h : tb.Rota xs p) (hv : tb.Valid) {s : Schedule L} {d : Duty} {k : Int}
    (hk : tb.DutyAt s d k) : 0 < (xs.filter (dutyMatches d s.selector)).length := by
  obtain ⟨h0, h1, l, hl, hm⟩ := (hv.dutyAt_iff).1 hk
  obtain ⟨l', l1, l2⟩ := h.label hv (k := k.toNat) (by omega)
  rw [show ((k.toNat : Nat) : Int) = k by omega, hl] at l1
  cases l1
  exact List.length_pos_iff.2 (List.ne_nil_of_mem (List.mem_filter.2 ⟨List.mem_of_getElem? l2, hm⟩))

theorem Timeboard.between_eq {tb : Timeboard L} (hv : tb.Valid) {s : Schedule L} {d : Duty} {lo hi : Int} (h0 : 0 ≤ lo) (h1 : hi < tb.timeline.len) {b : List Int}
    (hb : b.Pairwise (· < ·)) (hm : ∀ j, j ∈ b ↔ (lo ≤ j ∧ j < hi ∧ tb.DutyAt s d j)) (hhi : tb.DutyAt s d hi) (hle : lo ≤ hi) :
    b = tb.dutyPositions s.selector d lo (hi - 1) ∧ b ++ [hi] = tb.dutyPositions s.selector d lo hi := by
  refine ⟨pairwise_lt_ext hb (tb.pairwise_dutyPositions _ _ _ _) (fun x => ?_), pairwise_lt_ext ?_ (tb.pairwise_dutyPositions _ _ _ _) (fun x => ?_)⟩
  · rw [hm, hv.mem_dutyPositions_iff h0 (by omega)]
    constructor
    · rintro ⟨a, b, c⟩; exact ⟨a, by omega, c⟩
    · rintro ⟨a, b, c⟩; exact ⟨a, by omega, c⟩
  · rw [List.pairwise_append]
    refine ⟨hb, List.pairwise_singleton _ _, fun x hx y hy => ?_⟩
    rw [List.mem_singleton] at hy; subst hy
    exact ((hm x).1 hx).2.1
  · rw [List.mem_append, List.mem_singleton, hm, hv.mem_dutyPositions_iff h0 h1]
    constructor
    · rintro (⟨a, b, c⟩ | rfl)
      · exact ⟨a, by omega, c⟩
      · exact ⟨hle, Int.le_refl _, hhi⟩
    · rintro ⟨a, b, c⟩
      by_cases hx : x = hi
      · exact .inr hx
      · exact .inl ⟨a, by omega, c⟩

/-- Steps over `j` turns. -/
theorem Timeboard.Rota.steps {tb : Timeboard L} {xs : List L} {p : Nat} (h : tb.Rota xs p) (hv : tb.Valid) {s : Schedule L} {d : Duty} {k : Int} (j : Nat)
    (hk : tb.DutyAt s d k) (t : Int) :
    (tb.StepsTo s d k t (j * (xs.filter (dutyMatches d s.selector)).length) ↔ t = k + j * xs.length ∧ t < tb.timeline.len) ∧
    (tb.StepsTo s d k t (-(j * (xs.filter (dutyMatches d s.selector)).length)) ↔ t = k - j * xs.length ∧ 0 ≤ t) := by
  have hpos := h.some_duty hv hk
  have hk0 := hk.1
  have hk1 := hk.2.1
  have ecast : ((j * xs.length : Nat) : Int) = j * xs.length := by push_cast; rfl
  have ecast' : ((j * (xs.filter (dutyMatches d s.selector)).length : Nat) : Int) = j * (xs.filter (dutyMatches d s.selector)).length := by push_cast; rfl
  have uniq : ∀ lo hi (b : List Int), tb.DutyAt s d lo → tb.DutyAt s d hi → lo ≤ hi → b.Pairwise (· < ·) → (∀ i, i ∈ b ↔ (lo ≤ i ∧ i < hi ∧ tb.DutyAt s d i)) →
      b.length = j * (xs.filter (dutyMatches d s.selector)).length → hi = lo + (j * xs.length : Nat) := by
    intro lo hi b d1 d2 hle hb hm hlen
    obtain ⟨e1, e2⟩ := tb.between_eq hv d1.1 d2.2.1 hb hm d2 hle
    have p1 := (h.positions_turns hv s.selector d (j := j) d1.1 d2.2.1).1
    rw [← e2, List.length_append, List.length_singleton] at p1
    rcases Int.lt_trichotomy hi (lo + (j * xs.length : Nat)) with hlt | heq | hgt
    · exact absurd (p1 (by omega)) (by omega)
    · exact heq
    · -- the position one turn after the start is among those between
      have d3 := (h.dutyAt_turns hv (s := s) (d := d) (j := j) d1.1 (by have := d2.2.1; omega)).2 d1
      have q1 := (h.positions_turns hv s.selector d (j := j) (hi := lo + (j * xs.length : Nat) - 1) d1.1 (by have := d2.2.1; omega)).2 (by omega)
      have q2 : (tb.dutyPositions s.selector d lo (lo + (j * xs.length : Nat) - 1)) ++ [lo + ((j * xs.length : Nat) : Int)] =
          tb.dutyPositions s.selector d lo (lo + (j * xs.length : Nat)) :=
        (tb.between_eq hv (hi := lo + (j * xs.length : Nat)) d1.1 (by have := d2.2.1; omega) (tb.pairwise_dutyPositions _ _ _ _) (fun x => by
          rw [hv.mem_dutyPositions_iff d1.1 (by have := d2.2.1; omega)]
          constructor
          · rintro ⟨a, b, c⟩; exact ⟨a, by omega, c⟩
          · rintro ⟨a, b, c⟩; exact ⟨a, by omega, c⟩) d3 (by omega)).2
      have q3 : (tb.dutyPositions s.selector d lo (lo + (j * xs.length : Nat))).length ≤ (tb.dutyPositions s.selector d lo (hi - 1)).length := by
        have hsub : (tb.dutyPositions s.selector d lo (lo + (j * xs.length : Nat))).Sublist (tb.dutyPositions s.selector d lo (hi - 1)) := by
          unfold Timeboard.dutyPositions
          apply List.Sublist.filter
          rw [← intRange_append (show lo ≤ lo + (j * xs.length : Nat) + 1 by omega) (show lo + (j * xs.length : Nat) + 1 ≤ hi - 1 + 1 by omega)]
          exact List.sublist_append_left _ _
        exact hsub.length_le
      rw [← q2, List.length_append, List.length_singleton, q1, ← e1, hlen] at q3
      omega
  have exi : ∀ lo : Int, 0 ≤ lo → lo + (j * xs.length : Nat) < tb.timeline.len → tb.DutyAt s d (lo + (j * xs.length : Nat)) →
      ∃ b : List Int, b.Pairwise (· < ·) ∧ b.length = j * (xs.filter (dutyMatches d s.selector)).length ∧
        ∀ i, i ∈ b ↔ (lo ≤ i ∧ i < lo + (j * xs.length : Nat) ∧ tb.DutyAt s d i) := by
    intro lo h0 h1 hd
    refine ⟨tb.dutyPositions s.selector d lo (lo + (j * xs.length : Nat) - 1), tb.pairwise_dutyPositions _ _ _ _,
      (h.positions_turns hv s.selector d (j := j) h0 (by omega)).2 (by omega), fun x => ?_⟩
    rw [hv.mem_dutyPositions_iff h0 (by omega)]
    constructor
    · rintro ⟨a, b, c⟩; exact ⟨a, by omega, c⟩
    · rintro ⟨a, b, c⟩; exact ⟨a, by omega, c⟩
  have zero : j * (xs.filter (dutyMatches d s.selector)).length = 0 → j = 0 := by
    intro h; rcases Nat.mul_eq_zero.1 h with h | h
    · exact h
    · omega
  rw [← ecast', ← ecast]
  constructor
  · constructor
    · rintro ⟨dt, b, hb, ⟨hle, hn, hm⟩ | ⟨hle, hn, hm⟩⟩
      · exact ⟨uniq k t b hk dt hle hb hm (by omega), dt.2.1⟩
      · have hj := zero (by omega)
        have := uniq t k b dt hk hle hb hm (by omega)
        subst hj
        simp only [Nat.zero_mul] at this ⊢
        exact ⟨by omega, dt.2.1⟩
    · rintro ⟨rfl, ht⟩
      have hd := (h.dutyAt_turns hv (s := s) (d := d) (j := j) hk0 ht).2 hk
      obtain ⟨b, b1, b2, b3⟩ := exi k hk0 ht hd
      exact ⟨hd, b, b1, .inl ⟨by omega, by omega, b3⟩⟩
  · constructor
    · rintro ⟨dt, b, hb, ⟨hle, hn, hm⟩ | ⟨hle, hn, hm⟩⟩
      · have hj := zero (by omega)
        have := uniq k t b hk dt hle hb hm (by omega)
        subst hj
        simp only [Nat.zero_mul] at this ⊢
        exact ⟨by omega, dt.1⟩
      · have := uniq t k b dt hk hle hb hm (by omega)
        exact ⟨by omega, dt.1⟩
    · rintro ⟨he, ht⟩
      have ek : k = t + (j * xs.length : Nat) := by omega
      have hd := (h.dutyAt_turns hv (s := s) (d := d) (k := t) (j := j) ht (by omega)).1 (by rw [← ek]; exact hk)
      obtain ⟨b, b1, b2, b3⟩ := exi t ht (by omega) (by rw [← ek]; exact hk)
      rw [← ek] at b3
      exact ⟨hd, b, b1, .inr ⟨by omega, by omega, b3⟩⟩

/-- **C108**, the next turns: from a workshift with the duty, as many steps as there are workshifts with the duty in `j` turns lead `j` turns
further, or out of the timeboard. -/
theorem C108_next {tb : Timeboard L} {xs : List L} {p : Nat} (h : tb.Rota xs p) (hr : tb.Reachable) {k : Int} {sw sch : Option (Schedule L)} {w : Workshift L}
    (hw : Workshift.new tb k sw = .ok w) (h0 : tb.OwnsOpt sw) (h1 : tb.OwnsOpt sch) {d : Duty} (hd : d = .on ∨ d = .off ∨ d = .any)
    (hk : tb.DutyAt (sch.getD w.schedule) d k) {c : Nat} (hc : (xs.filter (dutyMatches d (sch.getD w.schedule).selector)).length = c) (j : Nat) :
    w.rollforward tb (j * c) d sch =
      (if k + j * xs.length < tb.timeline.len then Workshift.new tb (k + j * xs.length) (some (sch.getD w.schedule)) else .error .outOfBounds) ∧
    w.rollback tb (j * c) d sch =
      (if 0 ≤ k - j * xs.length then Workshift.new tb (k - j * xs.length) (some (sch.getD w.schedule)) else .error .outOfBounds) := by
  have hv := hr.valid
  subst hc
  have zf : ∀ k0, tb.ZeroForward (sch.getD w.schedule) d k k0 → k0 = k := by
    rintro k0 ⟨a, b, c⟩
    rcases Int.lt_or_eq_of_le a with hlt | heq
    · exact absurd hk (c k (Int.le_refl _) hlt)
    · exact heq.symm
  have zf' : tb.ZeroForward (sch.getD w.schedule) d k k := ⟨Int.le_refl _, hk, fun j _ _ => by omega⟩
  have zb : ∀ k0, tb.ZeroBack (sch.getD w.schedule) d k k0 → k0 = k := by
    rintro k0 ⟨a, b, c⟩
    rcases Int.lt_or_eq_of_le a with hlt | heq
    · exact absurd hk (c k hlt (Int.le_refl _))
    · exact heq
  have zb' : tb.ZeroBack (sch.getD w.schedule) d k k := ⟨Int.le_refl _, hk, fun j _ _ => by omega⟩
  have hpos : (0 : Int) ≤ (j : Int) * xs.length := Int.mul_nonneg (by omega) (by omega)
  refine ⟨?_, ?_⟩
  · obtain ⟨r1, r2⟩ := C19_rollforward hr ⟨hk.1, hk.2.1⟩ hw h0 h1 (j * (xs.filter (dutyMatches d (sch.getD w.schedule).selector)).length) hd
    have st := fun t => (h.steps hv j hk t).1
    split
    · rename_i hlt
      have hk0 := hk.1
      obtain ⟨w', hw', _⟩ := Workshift.exists_of_range hv (some (sch.getD w.schedule)) (k := k + j * xs.length) (by omega) hlt
      rw [hw']
      exact (r1 w').2 ⟨k, _, zf', (st _).2 ⟨rfl, hlt⟩, hw'⟩
    · rename_i hge
      refine (r2 _).2 ⟨rfl, ?_⟩
      rintro ⟨k0, t, z, s⟩
      rw [zf k0 z, st] at s
      omega
  · obtain ⟨r1, r2⟩ := C20_rollback hr ⟨hk.1, hk.2.1⟩ hw h0 h1 (j * (xs.filter (dutyMatches d (sch.getD w.schedule).selector)).length) hd
    have st := fun t => (h.steps hv j hk t).2
    split
    · rename_i hlt
      have hk1 := hk.2.1
      obtain ⟨w', hw', _⟩ := Workshift.exists_of_range hv (some (sch.getD w.schedule)) (k := k - j * xs.length) hlt (by omega)
      rw [hw']
      exact (r1 w').2 ⟨k, _, zb', (st _).2 ⟨rfl, hlt⟩, hw'⟩
    · rename_i hge
      refine (r2 _).2 ⟨rfl, ?_⟩
      rintro ⟨k0, t, z, s⟩
      rw [zb k0 z, st] at s
      omega

theorem sum_exactly_one {α : Type} (g : α → Bool) (x : Rat) (ss : List α) (h : (ss.filter g).length = 1) : (ss.map (fun s => if g s then x else 0)).sum = x := by
  rw [← rat_sum_filter]
  match hf : ss.filter g, h with
  | [a], _ => simp only [List.map_cons, List.map_nil, List.sum_cons, List.sum_nil]; grind

theorem rat_sum_swap {α β : Type} (F : α → β → Rat) (ks : List α) (ss : List β) :
    (ss.map (fun s => (ks.map (fun k => F k s)).sum)).sum = (ks.map (fun k => (ss.map (F k)).sum)).sum := by
  induction ks with
  | nil =>
    simp only [List.map_nil, List.sum_nil]
    induction ss with
    | nil => rfl
    | cons s ss ih => simp only [List.map_cons, List.sum_cons, ih]; grind
  | cons k ks ih =>
    simp only [List.map_cons, List.sum_cons]
    rw [← ih]
    clear ih
    induction ss with
    | nil => simp only [List.map_nil, List.sum_nil]; grind
    | cons s ss ih => simp only [List.map_cons, List.sum_cons, ih]; grind

/-- The amounts under a family of schedules, one of which is on duty at a time. -/
theorem Timeboard.amounts_partition {tb : Timeboard L} {ss : List (Schedule L)} {ks : List Int} (hv : tb.Valid)
    (hone : ∀ k w, k ∈ ks → Workshift.new tb k = .ok w → (ss.filter (fun s => s.selector w.label)).length = 1)
    (hk : ∀ k ∈ ks, 0 ≤ k ∧ k < tb.timeline.len) (g : L → Int → Rat) :
    (ss.map (fun s => (ks.map (tb.amount (fun l n => if dutyMatches .on s.selector l then g l n else 0))).sum)).sum = (ks.map (tb.amount g)).sum := by
  rw [rat_sum_swap]
  congr 1
  apply List.map_congr_left
  intro k hkk
  obtain ⟨w, w1, _, _, w3, _⟩ := Workshift.exists_of_range hv none (k := k) (hk k hkk).1 (hk k hkk).2
  unfold Timeboard.amount
  simp only [w3]
  exact sum_exactly_one (fun s => s.selector w.label) _ ss (hone k w hkk w1)

theorem mapM_ok_all {α β : Type} {ss : List α} {f : α → Except Err β} {g : α → β} (h : ∀ s ∈ ss, f s = .ok (g s)) : ss.mapM f = .ok (ss.map g) := by
  induction ss with
  | nil => rfl
  | cons s ss ih =>
    rw [List.mapM_cons, h s List.mem_cons_self, ih (fun x hx => h x (List.mem_cons_of_mem _ hx))]
    rfl

/-- **C108**, one at a time: if exactly one of the schedules is on duty at every workshift of the interval, then the counts of their workshifts
add up to the length of the interval, the durations to its total duration, and the work times to its work time. -/
theorem C108_one_at_a_time {tb : Timeboard L} (hr : tb.Reachable) {v : Interval L} (hi : tb.HasInterval v) {ss : List (Schedule L)} (hs : ∀ s ∈ ss, tb.Owns s)
    (hone : ∀ k w, v.Contains tb k → Workshift.new tb k = .ok w → (ss.filter (fun s => s.selector w.label)).length = 1)
    {num : L → Option Rat} {q : L → Rat} (hq : ∀ l, num l = some (q l)) :
    (∃ ns, ss.mapM (fun s => v.count tb .on (some s)) = .ok ns ∧ ns.sum = v.len) ∧
    (∃ ns, ss.mapM (fun s => v.totalDuration tb .on (some s)) = .ok ns ∧ v.totalDuration tb .any = .ok ns.sum) ∧
    (∃ ns, ss.mapM (fun s => v.worktime tb num .on (some s)) = .ok ns ∧ v.worktime tb num .any = .ok ns.sum) := by
  have hv := hr.valid
  have fv := hi.fine hv
  have h0 := fv.nonneg
  have h1 := fv.lt
  have hk : ∀ k ∈ intRange v.lo (v.hi + 1), 0 ≤ k ∧ k < tb.timeline.len := by intro k hk; rw [mem_intRange] at hk; omega
  have hone' : ∀ k w, k ∈ intRange v.lo (v.hi + 1) → Workshift.new tb k = .ok w → (ss.filter (fun s => s.selector w.label)).length = 1 := by
    intro k w hkk; rw [mem_intRange] at hkk
    exact hone k w ((fv.contains_iff hv k).2 (by omega))
  have ho : ∀ s ∈ ss, tb.OwnsOpt (some s) := by intro s hm x hx; cases hx; exact hs s hm
  have hnone : tb.OwnsOpt none := by intro x hx; cases hx
  have part := fun g => tb.amounts_partition hv hone' hk g
  have any : ∀ g : L → Int → Rat, (fun l n => if dutyMatches .any v.schedule.selector l then g l n else 0) = g := fun g => rfl
  have cnt : ∀ (sel : L → Bool) (d : Duty), ((((tb.dutyPositions sel d v.lo v.hi).length : Nat) : Int) : Rat) =
      ((intRange v.lo (v.hi + 1)).map (tb.amount (fun l _ => if dutyMatches d sel l then 1 else 0))).sum := by
    intro sel d
    rw [← tb.amount_positions sel d v.lo v.hi (fun _ _ => 1), rat_length]
    congr 1
    apply List.map_congr_left
    intro k hkk
    unfold Timeboard.dutyPositions at hkk
    have := hk k (List.mem_filter.1 hkk).1
    exact (tb.amount_one hv (fun _ => true) this.1 this.2).symm
  have dur : ∀ (sel : L → Bool) (d : Duty), ((((tb.dutyPositions sel d v.lo v.hi).map (fun k => tb.timeline.bnd (k + 1) - tb.timeline.bnd k)).sum : Int) : Rat) =
      ((intRange v.lo (v.hi + 1)).map (tb.amount (fun l n => if dutyMatches d sel l then (n : Rat) else 0))).sum := by
    intro sel d
    rw [← tb.amount_positions sel d v.lo v.hi (fun _ n => (n : Rat)), rat_int_sum]
    congr 1
    apply List.map_congr_left
    intro k hkk
    unfold Timeboard.dutyPositions at hkk
    obtain ⟨l, hl⟩ := hv.wf.label_eq (hk k (List.mem_filter.1 hkk).1).1 (hk k (List.mem_filter.1 hkk).1).2
    unfold Timeboard.amount
    rw [hl]
  refine ⟨⟨_, mapM_ok_all (fun s hm => fv.count_eq hv (ho s hm) (.inl rfl)), ?_⟩, ⟨_, mapM_ok_all (fun s hm => fv.totalDuration_eq hv (ho s hm) (.inl rfl)), ?_⟩,
    ⟨_, mapM_ok_all (fun s hm => worktime_amounts hr hi (ho s hm) hq (.inl rfl)), ?_⟩⟩
  · rw [fv.len_eq, ← hv.dutyPositions_any v.schedule.selector h0.1 h1.2, ← Rat.intCast_inj, cnt, rat_int_sum, List.map_congr_left (fun s _ => cnt _ _)]
    exact part (fun _ _ => 1)
  · rw [fv.totalDuration_eq hv hnone (.inr (.inr rfl))]
    congr 1
    rw [← Rat.intCast_inj, dur, rat_int_sum, List.map_congr_left (fun s _ => dur _ _)]
    exact (part (fun _ n => (n : Rat))).symm
  · rw [worktime_amounts hr hi hnone hq (.inr (.inr rfl))]
    congr 1
    exact (part (fun l n => if tb.worktimeSource = "labels" then q l else (n : Rat))).symm

/-- **C108**, working weeks: in a ready-made calendar without amendments any `7 * m` days have `5 * m` working days and `40 * m` hours of work. -/
theorem C108_working_weeks {c : Calendar} (hc : Preconfigured c) {cs ce : Option Time} {oc : Bool}
    {custom : Option (List (Time × Int))} {heap : Heap Int} {tb : Timeboard Int} (h : c.new cs ce true oc custom heap = .ok tb)
    {v : Interval Int} (hi : tb.HasInterval v) (m : Nat) (hm : v.len = 7 * m) :
    v.count tb .on (some tb.defaultSchedule) = .ok (5 * m) ∧ v.worktime tb (fun l => some (l : Rat)) .on (some tb.defaultSchedule) = .ok (40 * m) := by
  obtain ⟨hr, h1, h2⟩ := hc.facts h
  have ho : tb.OwnsOpt (some tb.defaultSchedule) := by intro x hx; cases hx; exact hr.valid.default_owned
  have e : [8, 8, 8, 8, 8, 0, 0].filter (dutyMatches .on tb.defaultSchedule.selector) = [8, 8, 8, 8, 8] := by
    have : dutyMatches .on tb.defaultSchedule.selector = fun l => l != 0 := funext h2
    rw [this]; rfl
  obtain ⟨r1, r2⟩ := C108_whole_turns (C108_weeks hc h) hr hi ho (d := .on) (.inl rfl) m (by simp only [List.length_cons, List.length_nil]; omega)
  simp only [Option.getD_some, e] at r1 r2
  refine ⟨by rw [r1]; simp only [List.length_cons, List.length_nil]; congr 1; omega, ?_⟩
  rw [r2 h1 _ _ (fun _ => rfl)]
  congr 1
  simp only [List.map_cons, List.map_nil, List.sum_cons, List.sum_nil]
  grind

/-- Three teams take turns in January 2017; team 2 is the default schedule. -/
def rotaArgs : Args Int where
  freq := fD
  start := date 2017 1 1
  stop := date 2017 1 31
  layout := .pattern (.list [1, 2, 3, 2])
  selector := fun l => l == 2
  defaultLabel := 0
  worktimeSource := "labels"

def rota : Timeboard Int := board rotaArgs (by decide +kernel)

theorem heap0_shows : heap0.Shows (fun _ => ([], 0)) := fun _ => C97_new_pattern []

theorem rota_is : rota.Rota [1, 2, 3, 2] 0 := by
  obtain ⟨h', h⟩ := board_ok rotaArgs (by decide +kernel)
  exact (C108_rotas heap0_shows h rfl (by simp)).1 rfl

-- eight days from 6 January 2017 are two turns, ten are between two and three
example : (rota.getInterval (some (.point (date 2017 1 6))) (some 8)).bind (fun v => v.count rota .on) = .ok (2 * 2) ∧
    (rota.getInterval (some (.point (date 2017 1 6))) (some 10)).bind (fun v => v.count rota .on) = .ok 5 ∧
    (rota.getInterval (some (.point (date 2017 1 6))) (some 8)).bind (fun v => v.worktime rota (fun l => some (l : Rat)) .on) = .ok (2 * 4) := by
  decide +kernel

-- the second day is a turn of team 2; three turns later is the day number 13; from there eight turns lead out
example : (Workshift.new rota 1).bind (fun w => (w.rollforward rota (3 * 2)).map (fun x => x.loc)) = .ok (1 + 3 * 4) ∧
    (Workshift.new rota 1).bind (fun w => (w.rollforward rota (8 * 2)).map (fun x => x.loc)) = .error .outOfBounds ∧
    (Workshift.new rota 13).bind (fun w => (w.rollback rota (3 * 2)).map (fun x => x.loc)) = .ok 1 ∧
    (Workshift.new rota 13).bind (fun w => (w.rollback rota (4 * 2)).map (fun x => x.loc)) = .error .outOfBounds := by
  decide +kernel

-- with an amendment the labels do not follow in turn
example : (Timeboard.new { rotaArgs with amendments := [(date 2017 1 2, 3)] } heap0).bind (fun r => (Workshift.new r.1 1).map (fun w => w.label)) = .ok 3 := by
  decide +kernel

-- three schedules, one at a time: 3 + 5 + 2 of ten days
example : [1, 2, 3].mapM (fun (i : Int) => (rota.getInterval (some (.point (date 2017 1 5))) (some 10)).bind
      (fun v => v.count rota .on (some (Schedule.new rota.timeline "team" (fun l => l == i))))) = .ok [3, 5, 2] ∧
    rota.Owns (Schedule.new rota.timeline "team" (fun l => l == 3)) := ⟨by decide +kernel, rfl⟩

end TB
