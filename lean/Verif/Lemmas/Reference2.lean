import Verif.Lemmas.Reference
import Verif.Lemmas.Layout4
/-! Stepping over workshifts and making intervals by the reference program. -/
namespace TB
open Reference
variable {L : Type} {tb : Timeboard L} {xs : List (Shift L)}

/-! ### rolls -/

theorem filter_lt_append {P : List Int} (hP : P.Pairwise (· < ·)) (v : Int) :
    P = P.filter (fun x => decide (x < v)) ++ P.filter (fun x => decide (v ≤ x)) := by
  induction P with
  | nil => rfl
  | cons x xs ih =>
    have hx := List.pairwise_cons.1 hP
    by_cases h : x < v
    · rw [List.filter_cons_of_pos (by simpa using h), List.filter_cons_of_neg (by simpa using h), List.cons_append, ← ih hx.2]
    · rw [List.filter_cons_of_neg (by simpa using h), List.filter_cons_of_pos (by simp; omega)]
      have e1 : xs.filter (fun x => decide (x < v)) = [] := by
        rw [List.filter_eq_nil_iff]; intro y hy; have := hx.1 y hy; simp; omega
      have e2 : xs.filter (fun x => decide (v ≤ x)) = xs := by
        rw [List.filter_eq_self]; intro y hy; have := hx.1 y hy; simp; omega
      rw [e1, e2]; rfl

theorem pick_loc (hv : tb.Valid) {P : List Int} (hs : P.Pairwise (· < ·)) (hr : ∀ t ∈ P, 0 ≤ t ∧ t < tb.timeline.len) (j : Int)
    (s : Schedule L) : (pick tb P j s).map (fun w => w.loc) = orOut (if 0 ≤ j then P[j.toNat]? else none) := by
  cases hp : pick tb P j s with
  | ok w =>
    obtain ⟨t, h1, h2, h3⟩ := (pick_ok_iff hs).1 hp
    have h0 := ssLeft_nonneg P t
    have := (ssLeft_of_getElem? hs (j := j.toNat) (t := t)).2 ⟨h1, by omega⟩
    rw [if_pos (by omega), this]
    have hb := hr t h1
    obtain ⟨w', d1, d2, _⟩ := Workshift.exists_of_range hv (some s) hb.1 hb.2
    rw [d1] at h3; cases h3
    simp [Except.map, orOut, d2]
  | error e =>
    obtain ⟨rfl, h2⟩ := (pick_error_iff hv hs hr).1 hp
    have : (if 0 ≤ j then P[j.toNat]? else none) = none := by
      split
      · rename_i h0
        cases hg : P[j.toNat]? with
        | none => rfl
        | some t =>
          have := (ssLeft_of_getElem? hs).1 hg
          exact absurd ⟨t, this.1, by omega⟩ h2
      · rfl
    rw [this]; rfl

/-- Forward: from the first element not less than `k`. -/
theorem forward_eq {P : List Int} (hs : P.Pairwise (· < ·)) (k n : Int) :
    (match P.filter (fun j => decide (k ≤ j)) with
      | [] => (.error .outOfBounds : Except Err Int)
      | k0 :: later =>
        if 0 ≤ n then orOut (k0 :: later)[n.toNat]?
        else orOut (P.filter (fun j => decide (j < k0))).reverse[(-n - 1).toNat]?) =
    if ssLeft P k = P.length then .error .outOfBounds
    else orOut (if 0 ≤ ssLeft P k + n then P[(ssLeft P k + n).toNat]? else none) := by
  have happ := filter_lt_append hs k
  have hlen := ssLeft_filter hs k
  cases hb : P.filter (fun j => decide (k ≤ j)) with
  | nil =>
    rw [hb, List.append_nil] at happ
    rw [if_pos (by rw [hlen, ← happ])]
  | cons k0 later =>
    have hk0 : k0 ∈ P ∧ k ≤ k0 := by
      have : k0 ∈ P.filter (fun j => decide (k ≤ j)) := by rw [hb]; simp
      simpa using this
    have hfirst : ∀ y ∈ P, k ≤ y → k0 ≤ y := by
      intro y hy hky
      have hm : y ∈ P.filter (fun j => decide (k ≤ j)) := by simp [hy, hky]
      have hpw := hs.filter (fun j => decide (k ≤ j))
      rw [hb] at hm hpw
      rcases List.mem_cons.1 hm with rfl | hm
      · exact Int.le_refl _
      · exact Int.le_of_lt ((List.pairwise_cons.1 hpw).1 y hm)
    have e : P.filter (fun j => decide (j < k0)) = P.filter (fun j => decide (j < k)) := by
      apply List.filter_congr
      intro y hy
      rw [decide_eq_decide]
      constructor
      · intro h
        by_cases hc : y < k
        · exact hc
        · have := hfirst y hy (by omega); omega
      · intro h; omega
    have hl2 : P.length = (P.filter (fun j => decide (j < k))).length + (k0 :: later).length := by
      rw [← List.length_append, ← hb, ← happ]
    have hne : ¬ ssLeft P k = P.length := by rw [hlen, hl2]; simp; omega
    rw [if_neg hne]
    simp only [e]
    rw [hb] at happ
    generalize P.filter (fun j => decide (j < k)) = A at *
    rw [hlen]
    by_cases hn : 0 ≤ n
    · rw [if_pos hn, if_pos (by omega), happ, List.getElem?_append_right (by omega)]
      congr 2; omega
    · rw [if_neg hn]
      congr 1
      split
      · rename_i h0
        rw [happ, List.getElem?_append_left (by omega), List.getElem?_reverse (by omega)]
        congr 1; omega
      · rw [List.getElem?_eq_none]; simp; omega

/-- Back: from the last element not greater than `k`. -/
theorem back_eq {P : List Int} (hs : P.Pairwise (· < ·)) (k n : Int) :
    (match (P.filter (fun j => decide (j ≤ k))).reverse with
      | [] => (.error .outOfBounds : Except Err Int)
      | k0 :: earlier =>
        if 0 ≤ n then orOut (k0 :: earlier)[n.toNat]?
        else orOut (P.filter (fun j => decide (k0 < j)))[(-n - 1).toNat]?) =
    if ssLeft P (k + 1) = 0 then .error .outOfBounds
    else orOut (if 0 ≤ ssLeft P (k + 1) - 1 - n then P[(ssLeft P (k + 1) - 1 - n).toNat]? else none) := by
  have happ := filter_lt_append hs (k + 1)
  have hlen := ssLeft_filter hs (k + 1)
  have el : (fun x : Int => decide (x < k + 1)) = (fun x => decide (x ≤ k)) := by
    funext x; rw [decide_eq_decide]; omega
  rw [el] at happ hlen
  cases hb : (P.filter (fun j => decide (j ≤ k))).reverse with
  | nil =>
    have : P.filter (fun j => decide (j ≤ k)) = [] := by simpa using hb
    rw [if_pos (by rw [hlen, this]; rfl)]
  | cons k0 earlier =>
    have ha : P.filter (fun j => decide (j ≤ k)) = earlier.reverse ++ [k0] := by
      have := congrArg List.reverse hb; simpa using this
    have hk0 : k0 ∈ P ∧ k0 ≤ k := by
      have : k0 ∈ P.filter (fun j => decide (j ≤ k)) := by rw [ha]; simp
      simpa using this
    have hlast : ∀ y ∈ P, y ≤ k → y ≤ k0 := by
      intro y hy hky
      have hm : y ∈ P.filter (fun j => decide (j ≤ k)) := by simp [hy, hky]
      have hpw := hs.filter (fun j => decide (j ≤ k))
      rw [ha] at hm hpw
      rcases List.mem_append.1 hm with hm | hm
      · exact Int.le_of_lt ((List.pairwise_append.1 hpw).2.2 y hm k0 (by simp))
      · simp at hm; omega
    have e : P.filter (fun j => decide (k0 < j)) = P.filter (fun j => decide (k + 1 ≤ j)) := by
      apply List.filter_congr
      intro y hy
      rw [decide_eq_decide]
      constructor
      · intro h
        by_cases hc : k + 1 ≤ y
        · exact hc
        · have := hlast y hy (by omega); omega
      · intro h; omega
    have hl2 : (P.filter (fun j => decide (j ≤ k))).length = (k0 :: earlier).length := by
      rw [← hb, List.length_reverse]
    have hne : ¬ ssLeft P (k + 1) = 0 := by rw [hlen, hl2]; simp; omega
    rw [if_neg hne]
    simp only [e]
    rw [← hb]
    generalize P.filter (fun j => decide (j ≤ k)) = A at *
    generalize P.filter (fun j => decide (k + 1 ≤ j)) = B at *
    have hpos : 0 < A.length := by rw [hl2]; simp
    have hlP : P.length = A.length + B.length := by rw [happ, List.length_append]
    rw [hlen]
    by_cases hn : 0 ≤ n
    · rw [if_pos hn]
      congr 1
      split
      · rename_i h0
        rw [happ, List.getElem?_append_left (by omega), List.getElem?_reverse (by omega)]
        congr 1; omega
      · rw [List.getElem?_eq_none]; simp; omega
    · rw [if_neg hn, if_pos (by omega), happ, List.getElem?_append_right (by omega)]
      congr 2; omega

/-- `duty` of a workshift. -/
theorem Timeboard.ListedAs.dutyIndex_eq (hx : tb.ListedAs xs) (hv : tb.Valid) {w : Workshift L} {l : L} (h0 : 0 ≤ w.loc)
    (h1 : w.loc < tb.timeline.len) (hl : tb.timeline.label w.loc = .ok l) {s : Schedule L} (ho : tb.Owns s) (d : Duty) :
    w.dutyIndex tb d s = (dutyFor xs s.selector w.loc d).map (having xs s.selector) := by
  have hon : w.loc ∈ having xs s.selector .on ↔ s.selector l = true := by
    rw [hx.mem_having hv]
    constructor
    · rintro ⟨_, _, l', g1, g2⟩; rw [hl] at g1; cases g1; exact g2
    · intro h; exact ⟨h0, h1, l, hl, h⟩
  cases d with
  | same =>
    rw [Workshift.dutyIndex_same hl]
    unfold dutyFor
    simp only [Except.map, hon]
    cases hsl : s.selector l <;> simp only [if_true, if_false, Bool.false_eq_true] <;>
      rw [Workshift.dutyIndex_eq hv hl ho (by simp), hx.having_eq hv]
  | alt =>
    rw [Workshift.dutyIndex_alt hl]
    unfold dutyFor
    simp only [Except.map, hon]
    cases hsl : s.selector l <;> simp only [if_true, if_false, Bool.false_eq_true] <;>
      rw [Workshift.dutyIndex_eq hv hl ho (by simp), hx.having_eq hv]
  | other => exact Workshift.dutyIndex_other hl s
  | on => rw [Workshift.dutyIndex_eq hv hl ho (by simp)]; simp only [dutyFor, Except.map, hx.having_eq hv]
  | off => rw [Workshift.dutyIndex_eq hv hl ho (by simp)]; simp only [dutyFor, Except.map, hx.having_eq hv]
  | any => rw [Workshift.dutyIndex_eq hv hl ho (by simp)]; simp only [dutyFor, Except.map, hx.having_eq hv]

theorem Timeboard.ListedAs.having_range (hx : tb.ListedAs xs) (sel : L → Bool) (d : Duty) :
    ∀ t ∈ having xs sel d, 0 ≤ t ∧ t < tb.timeline.len := by
  intro t ht
  have := mem_those.1 ht
  rw [hx.1]
  exact ⟨this.1, this.2.1⟩

theorem Workshift.rollforward_of_error {w : Workshift L} {sch : Option (Schedule L)} {d : Duty} {e : Err}
    (hP : w.dutyIndex tb d (sch.getD w.schedule) = .error e) (n : Int) : w.rollforward tb n d sch = .error e := by
  unfold Workshift.rollforward
  simp only [hP, bind, Except.bind]

theorem Workshift.rollback_of_error {w : Workshift L} {sch : Option (Schedule L)} {d : Duty} {e : Err}
    (hP : w.dutyIndex tb d (sch.getD w.schedule) = .error e) (n : Int) : w.rollback tb n d sch = .error e := by
  unfold Workshift.rollback
  simp only [hP, bind, Except.bind]

theorem Timeboard.ListedAs.rollforward (hx : tb.ListedAs xs) (hv : tb.Valid) {w : Workshift L} {l : L} (h0 : 0 ≤ w.loc)
    (h1 : w.loc < tb.timeline.len) (hl : tb.timeline.label w.loc = .ok l) {sch : Option (Schedule L)} (ho : tb.Owns (sch.getD w.schedule))
    (n : Int) (d : Duty) :
    (w.rollforward tb n d sch).map (fun w => w.loc) = Reference.rollforward xs (sch.getD w.schedule).selector w.loc n d := by
  have hi := hx.dutyIndex_eq hv h0 h1 hl ho d
  unfold Reference.rollforward
  cases hd : dutyFor xs (sch.getD w.schedule).selector w.loc d with
  | error e => rw [hd] at hi; rw [Workshift.rollforward_of_error hi]; rfl
  | ok d' =>
    rw [hd] at hi
    rw [Workshift.rollforward_eq hi]
    have hs : (having xs (sch.getD w.schedule).selector d').Pairwise (· < ·) := pairwise_those xs _
    refine Eq.trans ?_ (forward_eq hs w.loc n).symm
    split
    · rfl
    · exact pick_loc hv hs (hx.having_range _ _) _ _

theorem Timeboard.ListedAs.rollback (hx : tb.ListedAs xs) (hv : tb.Valid) {w : Workshift L} {l : L} (h0 : 0 ≤ w.loc)
    (h1 : w.loc < tb.timeline.len) (hl : tb.timeline.label w.loc = .ok l) {sch : Option (Schedule L)} (ho : tb.Owns (sch.getD w.schedule))
    (n : Int) (d : Duty) :
    (w.rollback tb n d sch).map (fun w => w.loc) = Reference.rollback xs (sch.getD w.schedule).selector w.loc n d := by
  have hi := hx.dutyIndex_eq hv h0 h1 hl ho d
  unfold Reference.rollback
  cases hd : dutyFor xs (sch.getD w.schedule).selector w.loc d with
  | error e => rw [hd] at hi; rw [Workshift.rollback_of_error hi]; rfl
  | ok d' =>
    rw [hd] at hi
    have hs : (having xs (sch.getD w.schedule).selector d').Pairwise (· < ·) := pairwise_those xs _
    rw [Workshift.rollback_eq hi hs]
    refine Eq.trans ?_ (back_eq hs w.loc n).symm
    split
    · rfl
    · exact pick_loc hv hs (hx.having_range _ _) _ _

/-! ### making intervals -/

theorem drop_one_intRange (a b : Int) : (intRange a b).drop 1 = intRange (a + 1) b := by
  by_cases h : a < b
  · rw [intRange_cons h]; rfl
  · rw [intRange_empty (by omega), intRange_empty (by omega)]; rfl

theorem dropLast_intRange (a b : Int) : (intRange a b).dropLast = intRange a (b - 1) := by
  by_cases h : a < b
  · rw [← intRange_append (a := a) (b := b - 1) (c := b) (by omega) (by omega), intRange_cons (a := b - 1) (by omega),
      intRange_empty (a := b - 1 + 1) (by omega), List.dropLast_concat]
  · rw [intRange_empty (by omega), intRange_empty (by omega)]; rfl

theorem cutHead_intRange (c : String) (a b : Int) : cutHead c (intRange a b) = intRange (a + headCut c) b := by
  unfold cutHead headCut
  split
  · exact drop_one_intRange a b
  · rw [Int.add_zero]

theorem cutTail_intRange (c : String) (a b : Int) : cutTail c (intRange a (b + 1)) = intRange a (b - tailCut c + 1) := by
  unfold cutTail tailCut
  split
  · rw [dropLast_intRange]; congr 1; omega
  · rw [Int.sub_zero]

theorem Interval.new_numbers {i j : Int} (sch : Option (Schedule L)) (h0 : 0 ≤ i) (h1 : i ≤ j) (h2 : j < tb.timeline.len) :
    (Interval.new tb (i, j) sch).map Interval.numbers = .ok (intRange i (j + 1)) := by
  rw [Interval.new_ok_iff.2 ⟨h0, h1, h2, rfl⟩]
  rfl

theorem intRange_eq_nil_iff (a b : Int) : intRange a b = [] ↔ b ≤ a := by
  constructor
  · intro h
    by_cases hc : a < b
    · rw [intRange_cons hc] at h; cases h
    · omega
  · exact intRange_empty

theorem cutInterval_numbers {i j : Int} (c : String) (sch : Option (Schedule L)) (h0 : 0 ≤ i) (h2 : j < tb.timeline.len) :
    (cutInterval tb i j c sch).map Interval.numbers = orElse .voidInterval (cutTail c (cutHead c (intRange i (j + 1)))) := by
  rw [cutHead_intRange, cutTail_intRange]
  have := headCut_cases c
  have := tailCut_cases c
  unfold cutInterval orElse
  by_cases h : i + headCut c ≤ j - tailCut c
  · rw [if_pos h, Interval.new_numbers sch (by omega) h (by omega), if_neg (by rw [intRange_eq_nil_iff]; omega)]
  · rw [if_neg h, if_pos (by rw [intRange_eq_nil_iff]; omega)]; rfl

/-- Where a place is, as a location. -/
def Place.Is (tb : Timeboard L) (l : Location) : Place → Prop
  | .at k => 0 ≤ k ∧ k < tb.timeline.len ∧ l = { pos := some k, side := 0 }
  | .before => l = { pos := none, side := -1 }
  | .after => l = { pos := none, side := 1 }

theorem Timeboard.ListedAs.locate_place (hx : tb.ListedAs xs) (hv : tb.Valid) (t : Time) :
    ∃ l, tb.locate t = .ok l ∧ Place.Is tb l (place xs t) := by
  by_cases h1 : t < tb.startTime
  · rw [hx.place_before hv h1]; exact ⟨_, hv.locate_left h1, rfl⟩
  · by_cases h2 : tb.endTime < t
    · rw [hx.place_after hv h2]; exact ⟨_, hv.locate_right h2, rfl⟩
    · obtain ⟨k, hk⟩ := hv.at_exists (t := t) ⟨by omega, by omega⟩
      rw [hx.place_at hv hk]
      exact ⟨_, hv.locate_at hk, hk.1, hk.2.1, rfl⟩

theorem finish_fromTo (c : String) (sch : Option (Schedule L)) {l m : Location} {p q : Place} (hl : Place.Is tb l p) (hm : Place.Is tb m q) :
    (tb.finishInterval (stripLocs (l, m) (decide (headCut c = 1)) (decide (tailCut c = 1))) sch).map Interval.numbers = fromTo c p q := by
  cases p with
  | before =>
    have hl' : l = { pos := none, side := -1 } := hl
    subst hl'
    cases q with
    | before =>
      have hm' : m = { pos := none, side := -1 } := hm
      subst hm'
      rw [strip_none_none, finish_out sch (by decide) (by decide)]; rfl
    | «at» j =>
      obtain ⟨h0, h1, rfl⟩ := hm
      rw [strip_none_some, finish_partial_left sch (by decide) (by decide)]; rfl
    | after =>
      have hm' : m = { pos := none, side := 1 } := hm
      subst hm'
      rw [strip_none_none, finish_out sch (by decide) (by decide)]; rfl
  | «at» i =>
    obtain ⟨g0, g1, rfl⟩ := hl
    cases q with
    | before =>
      have hm' : m = { pos := none, side := -1 } := hm
      subst hm'
      rw [strip_some_none, finish_disorder sch (by decide)]; rfl
    | «at» j =>
      obtain ⟨h0, h1, rfl⟩ := hm
      rw [strip_some_some, finish_within]
      exact cutInterval_numbers c sch g0 h1
    | after =>
      have hm' : m = { pos := none, side := 1 } := hm
      subst hm'
      rw [strip_some_none, finish_partial_right sch (by decide) (by decide)]; rfl
  | after =>
    have hl' : l = { pos := none, side := 1 } := hl
    subst hl'
    cases q with
    | before =>
      have hm' : m = { pos := none, side := -1 } := hm
      subst hm'
      rw [strip_none_none, finish_disorder sch (by decide)]; rfl
    | «at» j =>
      obtain ⟨h0, h1, rfl⟩ := hm
      rw [strip_none_some, finish_disorder sch (by decide)]; rfl
    | after =>
      have hm' : m = { pos := none, side := 1 } := hm
      subst hm'
      rw [strip_none_none, finish_out sch (by decide) (by decide)]; rfl

/-- The interval by locations, or the error in finding them. -/
def Timeboard.fromLocs (tb : Timeboard L) (r : Except Err (Location × Location)) (sch : Option (Schedule L)) : Except Err (List Int) :=
  match r with
  | .error e => .error e
  | .ok locs => (tb.finishInterval locs sch).map Interval.numbers

theorem getInterval_fromLocs {ref : Option IvlRef} {length : Option Int} {period : Option Freq} {clip : Bool} {closed : String}
    (sch : Option (Schedule L)) (hc : closedOk closed) :
    (tb.getInterval ref length period clip closed sch).map Interval.numbers =
      tb.fromLocs (tb.intervalLocs ref length period clip (decide (headCut closed = 1)) (decide (tailCut closed = 1))) sch := by
  cases h : tb.intervalLocs ref length period clip (decide (headCut closed = 1)) (decide (tailCut closed = 1)) with
  | error e => rw [getInterval_of_error hc h]; rfl
  | ok locs => rw [getInterval_of_locs hc h]; rfl

theorem Timeboard.ListedAs.locsByLength (hx : tb.ListedAs xs) (hv : tb.Valid) {ref : Option IvlRef} {t : Time} (ht : ref.bind IvlRef.toTime? = some t)
    (c : String) (sch : Option (Schedule L)) {n : Int} (hn : n ≠ 0) :
    tb.fromLocs (tb.locsByLength ref n (decide (headCut c = 1)) (decide (tailCut c = 1))) sch = byLength xs c t n := by
  unfold Timeboard.locsByLength
  rw [if_neg hn, ht]
  simp only
  obtain ⟨l, h1, h2⟩ := hx.locate_place hv t
  rw [h1]
  unfold byLength
  cases hp : place xs t with
  | before =>
    rw [hp] at h2
    have hl' : l = { pos := none, side := -1 } := h2
    subst hl'
    simp only [Timeboard.fromLocs]
    rw [finish_out sch (by decide) (by decide)]; rfl
  | after =>
    rw [hp] at h2
    have hl' : l = { pos := none, side := 1 } := h2
    subst hl'
    simp only [Timeboard.fromLocs]
    rw [finish_out sch (by decide) (by decide)]; rfl
  | «at» k =>
    rw [hp] at h2
    obtain ⟨g0, g1, rfl⟩ := h2
    simp only [Timeboard.fromLocs]
    have hlen := hx.1
    by_cases hpos : 0 < n
    · have e : k + n - (if n < 0 then -1 else 1) = k + n - 1 := by rw [if_neg (by omega)]
      rw [e, if_neg (by omega), if_pos hpos, if_pos hpos]
      by_cases hf : k + n - 1 < tb.timeline.len
      · rw [if_neg (by omega), if_neg (by omega), if_pos (by omega)]
        exact finish_fromTo (p := .at k) (q := .at (k + n - 1)) c sch ⟨g0, g1, rfl⟩ ⟨by omega, hf, rfl⟩
      · rw [if_pos (by omega), if_neg (by omega)]
        exact finish_fromTo (p := .at k) (q := .after) c sch ⟨g0, g1, rfl⟩ rfl
    · have e : k + n - (if n < 0 then -1 else 1) = k + n + 1 := by rw [if_pos (by omega)]; omega
      rw [e, if_neg hpos, if_neg hpos]
      by_cases hf : 0 ≤ k + n + 1
      · have hfit : 0 ≤ k + n + 1 ∧ k < (xs.length : Int) := ⟨hf, by omega⟩
        rw [if_neg (by omega), if_neg (by omega), if_pos hfit]
        split
        · exact finish_fromTo (p := .at (k + n + 1)) (q := .at k) c sch ⟨hf, by omega, rfl⟩ ⟨g0, g1, rfl⟩
        · have : k + n + 1 = k := by omega
          rw [this]
          exact finish_fromTo (p := .at k) (q := .at k) c sch ⟨g0, g1, rfl⟩ ⟨g0, g1, rfl⟩
      · rw [if_pos (by omega), if_neg (by omega)]
        exact finish_fromTo (p := .before) (q := .at k) c sch rfl ⟨g0, g1, rfl⟩

theorem Timeboard.ListedAs.locsByPeriod (hx : tb.ListedAs xs) (hv : tb.Valid) (p : Period) (clip : Bool) (c : String)
    (sch : Option (Schedule L)) :
    tb.fromLocs (tb.locsByPeriod p clip (decide (headCut c = 1)) (decide (tailCut c = 1))) sch = byPeriod xs clip c p := by
  have hin := hx.inside_iff hv p
  have hnil := hx.referenced_nil_iff hv (p := p)
  unfold byPeriod
  by_cases hex : ∃ k, tb.RefIn p k
  · obtain ⟨k, hk⟩ := hex
    obtain ⟨i, j, h0, h1, h2, hall, locs, hlocs, hA, hB, hC⟩ := hv.locsByPeriod_some hk clip (closed := c) sch
    have href := hx.referenced_eq hv hall
    rw [hlocs, href]
    simp only [Timeboard.fromLocs]
    by_cases hw : tb.Within p.startTime ∧ tb.Within p.endTime
    · rw [if_pos (hin.2 hw), hA hw.1 hw.2]
      exact cutInterval_numbers c sch h0 h2
    · rw [if_neg (fun h => hw (hin.1 h)), if_neg (by rw [intRange_eq_nil_iff]; omega)]
      cases clip with
      | false => rw [hB hw rfl]; rfl
      | true =>
        rw [hC hw rfl, if_pos rfl]
        have hhc := headCut_cases c
        have htc := tailCut_cases c
        have hnb := hx.notBefore_iff hv p.startTime
        have hna := hx.notAfter_iff hv p.endTime
        have hse := p.start_le_end
        have hr := hv.refIn_iff.1 hk
        have hfr := hv.refTime_in_frame hr.1 hr.2.1
        have hzero : ¬ (tb.startTime ≤ p.startTime) → i = 0 := by
          intro hlt
          have h0' := hv.refTime_in_frame (k := 0) (by omega) (by omega)
          have hij' := (hv.refIn_iff.1 ((hall i).2 ⟨by omega, by omega⟩)).2.2
          have : tb.timeline.refTime 0 ≤ tb.timeline.refTime i := by
            rcases Int.lt_or_eq_of_le h0 with hl | he
            · exact Int.le_of_lt (hv.wf.refTime_lt (by omega) hl (by omega))
            · subst he; omega
          have := (hall 0).1 (hv.refIn_iff.2 ⟨by omega, by omega, by omega, by omega⟩)
          omega
        have hlast : ¬ (p.endTime ≤ tb.endTime) → j = tb.timeline.len - 1 := by
          intro hlt
          have h0' := hv.refTime_in_frame (k := tb.timeline.len - 1) (by omega) (by omega)
          have hij' := (hv.refIn_iff.1 ((hall j).2 ⟨by omega, by omega⟩)).2.2
          have : tb.timeline.refTime j ≤ tb.timeline.refTime (tb.timeline.len - 1) := by
            by_cases hl : j < tb.timeline.len - 1
            · exact Int.le_of_lt (hv.wf.refTime_lt (by omega) hl (by omega))
            · have : j = tb.timeline.len - 1 := by omega
              subst this; omega
          have := (hall (tb.timeline.len - 1)).1 (hv.refIn_iff.2 ⟨by omega, by omega, by omega, by omega⟩)
          omega
        have hout : ∀ a b : Int, b < a → a = tb.timeline.len ∨ b = -1 → (Interval.new tb (a, b) sch).map Interval.numbers = .error .outOfBounds := by
          intro a b hlt hab
          have : Interval.new tb (a, b) sch = .error .outOfBounds := by
            rw [Interval.new_error_iff]
            exact .inl ⟨rfl, by omega⟩
          rw [this]; rfl
        clear hr hfr hall
        by_cases q1 : tb.startTime ≤ p.startTime
        · have q2 : ¬ p.endTime ≤ tb.endTime := by
            intro q2
            apply hw
            unfold Timeboard.Within
            omega
          have hj := hlast q2
          rw [if_pos q1, if_neg q2, if_pos (hnb.2 q1), if_neg (fun h => q2 (hna.1 h)), cutHead_intRange]
          unfold orElse
          by_cases hle : i + headCut c ≤ j
          · rw [Interval.new_numbers sch (by omega) hle h2, if_neg (by rw [intRange_eq_nil_iff]; omega)]
          · rw [if_pos (by rw [intRange_eq_nil_iff]; omega)]
            exact hout _ _ (by omega) (by omega)
        · have hi := hzero q1
          rw [if_neg q1, if_neg (fun h => q1 (hnb.1 h))]
          by_cases q2 : p.endTime ≤ tb.endTime
          · rw [if_pos q2, if_pos (hna.2 q2), cutTail_intRange]
            unfold orElse
            by_cases hle : i ≤ j - tailCut c
            · rw [Interval.new_numbers sch (by omega) hle (by omega), if_neg (by rw [intRange_eq_nil_iff]; omega)]
            · rw [if_pos (by rw [intRange_eq_nil_iff]; omega)]
              exact hout _ _ (by omega) (by omega)
          · rw [if_neg q2, if_neg (fun h => q2 (hna.1 h))]
            unfold orElse
            rw [Interval.new_numbers sch (by omega) h1 (by omega), if_neg (by rw [intRange_eq_nil_iff]; omega)]
  · have hno : ∀ k, ¬ tb.RefIn p k := fun k hk => hex ⟨k, hk⟩
    obtain ⟨hA, hB⟩ := hv.period_none hno clip (closed := c) sch
    rw [hnil.2 hno]
    by_cases hw : tb.Within p.startTime ∧ tb.Within p.endTime
    · obtain ⟨locs, e1, e2⟩ := hA hw.1 hw.2
      rw [if_pos (hin.2 hw), e1]
      simp only [Timeboard.fromLocs, e2]
      have : cutTail c (cutHead c []) = [] := by unfold cutTail cutHead; split <;> split <;> rfl
      rw [this]; rfl
    · obtain ⟨locs, e1, e2⟩ := hB hw
      rw [if_neg (fun h => hw (hin.1 h)), e1, if_pos rfl]
      simp only [Timeboard.fromLocs, e2]; rfl

theorem Timeboard.ListedAs.getInterval (hx : tb.ListedAs xs) (hv : tb.Valid) (ref : Option IvlRef) (length : Option Int) (period : Option Freq)
    (clip : Bool) (closed : String) (sch : Option (Schedule L)) :
    (tb.getInterval ref length period clip closed sch).map Interval.numbers = Reference.getInterval xs ref length period clip closed := by
  unfold Reference.getInterval
  by_cases hc : closed = "00" ∨ closed = "01" ∨ closed = "10" ∨ closed = "11"
  · rw [if_neg (fun h => h hc), getInterval_fromLocs sch hc]
    have hlen := hv.wf.len_pos
    have hxl := hx.1
    have hfirst : Place.Is tb { pos := some 0, side := 0 } (.at 0) := ⟨by omega, hlen, rfl⟩
    have hlast : Place.Is tb { pos := some (tb.timeline.len - 1), side := 0 } (.at (xs.length - 1)) := by
      rw [← hxl]; exact ⟨by omega, by omega, rfl⟩
    have hpair : ∀ a b, tb.fromLocs (tb.intervalLocs (some (.pair a b)) none none clip (decide (headCut closed = 1)) (decide (tailCut closed = 1))) sch =
        fromTo closed (match a with | some t => place xs t | none => .at 0) (match b with | some t => place xs t | none => .at (xs.length - 1)) := by
      intro a b
      unfold Timeboard.intervalLocs Timeboard.locsFromReference
      cases a with
      | none =>
        cases b with
        | none => exact finish_fromTo closed sch hfirst hlast
        | some u =>
          obtain ⟨m, h2, h3⟩ := hx.locate_place hv u
          simp only [h2, bind, Except.bind, pure, Except.pure]
          exact finish_fromTo closed sch hfirst h3
      | some t =>
        obtain ⟨l, h0, h1⟩ := hx.locate_place hv t
        cases b with
        | none =>
          simp only [h0, bind, Except.bind, pure, Except.pure]
          exact finish_fromTo closed sch h1 hlast
        | some u =>
          obtain ⟨m, h2, h3⟩ := hx.locate_place hv u
          simp only [h0, h2, bind, Except.bind, pure, Except.pure]
          exact finish_fromTo closed sch h1 h3
    cases length with
    | none =>
      cases period with
      | none =>
        match ref with
        | none => exact finish_fromTo closed sch hfirst hlast
        | some .short => rfl
        | some (.pair a b) => exact hpair a b
        | some (.point t) => rfl
        | some (.period p) => exact hx.locsByPeriod hv p clip closed sch
      | some f =>
        match ref with
        | none => rfl
        | some .short => rfl
        | some (.pair a b) => rfl
        | some (.point t) => exact hx.locsByPeriod hv (Period.ofTime f t) clip closed sch
        | some (.period p) => exact hx.locsByPeriod hv p clip closed sch
    | some n =>
      cases period with
      | none =>
        by_cases hn : n = 0
        · subst hn
          match ref with
          | none => rfl
          | some .short => rfl
          | some (.pair a b) => rfl
          | some (.point t) => rfl
          | some (.period p) => rfl
        · rw [intervalLocs_length]
          have hbad : ∀ r : Option IvlRef, r.bind IvlRef.toTime? = none →
              tb.fromLocs (tb.locsByLength r n (decide (headCut closed = 1)) (decide (tailCut closed = 1))) sch = .error .typeError := by
            intro r hr
            unfold Timeboard.locsByLength
            rw [if_neg hn, hr]; rfl
          match ref with
          | none => rw [hbad _ rfl]; split <;> simp_all
          | some .short => rw [hbad _ rfl]; split <;> simp_all
          | some (.pair a b) => rw [hbad _ rfl]; split <;> simp_all
          | some (.point t) => rw [hx.locsByLength hv (t := t) rfl closed sch hn]; split <;> simp_all
          | some (.period p) => rw [hx.locsByLength hv (t := p.startTime) rfl closed sch hn]; split <;> simp_all
      | some f =>
        change (Except.error Err.typeError : Except Err (List Int)) = _
        split <;> first | rfl | simp_all
  · rw [if_pos hc]
    unfold Timeboard.getInterval
    rw [if_pos (by simpa [not_or] using hc)]
    rfl

theorem Timeboard.ListedAs.getWorkshift (hx : tb.ListedAs xs) (hv : tb.Valid) (t : Time) (sch : Option (Schedule L)) :
    (tb.getWorkshift t sch).map (fun w => w.loc) = Reference.getWorkshift xs t := by
  unfold Timeboard.getWorkshift Reference.getWorkshift
  by_cases h : tb.Within t
  · obtain ⟨k, hk⟩ := hv.at_exists h
    rw [hv.locate_at hk, hx.head_at hv hk]
    obtain ⟨w, d1, d2, _⟩ := Workshift.exists_of_range hv sch hk.1 hk.2.1
    simp only [d1, Except.map, d2, orOut]
  · rw [hx.head_none hv h]
    unfold Timeboard.Within at h
    by_cases h1 : t < tb.startTime
    · rw [hv.locate_left h1]; rfl
    · rw [hv.locate_right (t := t) (by omega)]; rfl

end TB
