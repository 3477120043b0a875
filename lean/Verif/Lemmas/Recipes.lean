import Verif.Spec.Recipes
import Verif.Lemmas.Reference3
import Verif.Props.NthRoll
import Verif.Props.Overlap
import Verif.Props.CountPeriods
/-! Laws of the recipes. -/
namespace TB
variable {L : Type}

/-! ### Lists of workshifts with a duty -/

theorem Timeboard.ListsDuty.unique {tb : Timeboard L} {s : Schedule L} {d : Duty} {lo hi lo' hi' : Int} {ws ws' : List (Workshift L)}
    (h : tb.ListsDuty s d lo hi ws) (h' : tb.ListsDuty s d lo' hi' ws')
    (hb : ∀ k, tb.DutyAt s d k → ((lo ≤ k ∧ k ≤ hi) ↔ (lo' ≤ k ∧ k ≤ hi'))) : ws = ws' := by
  obtain ⟨a1, a2, a3⟩ := h
  obtain ⟨b1, b2, b3⟩ := h'
  have e : ws.map (fun w => w.loc) = ws'.map (fun w => w.loc) := by
    apply eq_of_pairwise_lt a1 b1
    intro k
    rw [List.mem_map, List.mem_map, a3, b3]
    constructor
    · rintro ⟨x, y, z⟩; have := (hb k z).1 ⟨x, y⟩; exact ⟨this.1, this.2, z⟩
    · rintro ⟨x, y, z⟩; have := (hb k z).2 ⟨x, y⟩; exact ⟨this.1, this.2, z⟩
  clear a1 a3 b1 b3
  induction ws generalizing ws' with
  | nil => cases ws' with
    | nil => rfl
    | cons => simp at e
  | cons w ws ih => cases ws' with
    | nil => simp at e
    | cons w' ws' =>
      simp only [List.map_cons, List.cons.injEq] at e
      have h1 := a2 w List.mem_cons_self
      have h2 := b2 w' List.mem_cons_self
      rw [e.1, h2] at h1
      cases h1
      rw [ih (fun x hx => a2 x (List.mem_cons_of_mem _ hx)) (fun x hx => b2 x (List.mem_cons_of_mem _ hx)) e.2]

/-- A list which starts at one of its members. -/
theorem Timeboard.ListsDuty.tail {tb : Timeboard L} {s : Schedule L} {d : Duty} {lo hi : Int} {ws rest : List (Workshift L)} {x : Workshift L} {n : Nat}
    (h : tb.ListsDuty s d lo hi ws) (hn : ws.drop n = x :: rest) : tb.ListsDuty s d x.loc hi (x :: rest) := by
  obtain ⟨a1, a2, a3⟩ := h
  have hsub : ∀ w, w ∈ x :: rest → w ∈ ws := fun w hw => by rw [← hn] at hw; exact List.mem_of_mem_drop hw
  have hp : ((x :: rest).map (fun w => w.loc)).Pairwise (· < ·) := by
    rw [← hn, List.map_drop]; exact a1.drop
  refine ⟨hp, fun w hw => a2 w (hsub w hw), fun k => ?_⟩
  rw [List.map_cons, List.pairwise_cons] at hp
  constructor
  · rintro ⟨w, hw, rfl⟩
    have h1 := (a3 w.loc).1 ⟨w, hsub w hw, rfl⟩
    refine ⟨?_, h1.2.1, h1.2.2⟩
    rcases List.mem_cons.1 hw with rfl | hw
    · exact Int.le_refl _
    · exact Int.le_of_lt (hp.1 _ (List.mem_map_of_mem hw))
  · rintro ⟨h1, h2, h3⟩
    have hx := (a3 x.loc).1 ⟨x, hsub x List.mem_cons_self, rfl⟩
    obtain ⟨w, hw, rfl⟩ := (a3 k).2 ⟨by omega, h2, h3⟩
    refine ⟨w, ?_, rfl⟩
    rw [← List.take_append_drop n ws, hn, List.mem_append] at hw
    rcases hw with hw | hw
    · exfalso
      have e : ws.map (fun w => w.loc) = (ws.take n).map (fun w => w.loc) ++ (x :: rest).map (fun w => w.loc) := by
        rw [← List.map_append, ← hn, List.take_append_drop]
      rw [e, List.pairwise_append] at a1
      have := a1.2.2 w.loc (List.mem_map_of_mem hw) x.loc (by simp)
      omega
    · exact hw

/-- Rolling forward picks from the list of the workshifts with the duty from this one on. -/
theorem Workshift.roll_picks {tb : Timeboard L} (h : tb.Reachable) {k : Int} {s : Schedule L} {w : Workshift L} (hk : 0 ≤ k ∧ k < tb.timeline.len)
    (hw : Workshift.new tb k (some s) = .ok w) (hs : tb.Owns s) {ws : List (Workshift L)} (hl : tb.ListsDuty s .on k (tb.timeline.len - 1) ws) (n : Nat) :
    w.rollforward tb n .on = match ws[n]? with | some x => .ok x | none => .error .outOfBounds := by
  have hos : tb.OwnsOpt (some s) := by intro y hy; cases hy; exact hs
  have hon : tb.OwnsOpt (none : Option (Schedule L)) := by intro y hy; cases hy
  obtain ⟨v, hv⟩ : ∃ v, Interval.new tb (k, tb.timeline.len - 1) (some s) = .ok v := ⟨_, Interval.new_ok_iff.2 ⟨by omega, by omega, by omega, rfl⟩⟩
  have hvs : v.schedule = s := by
    obtain ⟨_, _, _, e⟩ := Interval.new_ok_iff.1 hv
    rw [e]; rfl
  obtain ⟨_, _, hb⟩ := Workshift.new_ok_of_range h.valid (some s) (k := tb.timeline.len - 1) (by omega) (by omega)
  have key := fun w' => (C69_nth_is_rolling h hv hos hon (d := .on) (.inl rfl) hw hb n w').1
  obtain ⟨ws', e1, e2, _, e3, _⟩ := C18_nth_first_last h hv hos hon .on (.inl rfl)
  obtain ⟨ws2, f1, f2, _⟩ := (C17_iteration h hv hos hon).1 .on (.inl rfl)
  rw [e1] at f1; cases f1
  simp only [Option.getD_none, hvs] at f2
  have := hl.unique f2 (fun _ _ => Iff.rfl)
  subst this
  have hr := C19_rollforward h hk hw hos hon n (d := .on) (.inl rfl)
  cases hc : w.rollforward tb n .on with
  | ok x =>
    have hx : x.loc ≤ tb.timeline.len - 1 := by
      obtain ⟨k0, t, _, st, hn⟩ := (hr.1 x).1 hc
      have h1 := st.1
      rw [Workshift.new_loc hn]
      have := h1.2.1
      omega
    have h2 := (key x).2 ⟨hc, hx⟩
    by_cases hn : n < ws.length
    · obtain ⟨y, y1, y2⟩ := e2 n (by omega) (by omega)
      rw [h2] at y2; cases y2
      rw [Int.toNat_natCast] at y1
      rw [y1]
    · rw [e3 n (by omega)] at h2; cases h2
  | error e =>
    have he := ((hr.2 e).1 hc).1
    by_cases hn : n < ws.length
    · obtain ⟨y, y1, y2⟩ := e2 n (by omega) (by omega)
      have h2 := ((key y).1 y2).1
      rw [hc] at h2; cases h2
    · rw [List.getElem?_eq_none (by omega), he]

/-! ### Cutting a list into pieces -/

/-- The first and the last member of each piece of given length. -/
def cutEnds {α : Type} : List α → List Nat → Option (List (α × α))
  | _, [] => some []
  | l, d :: ds => match l[0]?, l[d - 1]? with
    | some a, some b => (cutEnds (l.drop d) ds).map ((a, b) :: ·)
    | _, _ => none

theorem cutEnds_none_iff {α : Type} {ds : List Nat} (hd : ∀ d ∈ ds, 1 ≤ d) : ∀ l : List α, cutEnds l ds = none ↔ l.length < ds.sum := by
  induction ds with
  | nil => intro l; simp [cutEnds]
  | cons d ds ih =>
    intro l
    have h1 : 1 ≤ d := hd d List.mem_cons_self
    have ih := ih (fun x hx => hd x (List.mem_cons_of_mem _ hx)) (l.drop d)
    rw [List.length_drop] at ih
    rw [List.sum_cons]
    unfold cutEnds
    by_cases hl : d ≤ l.length
    · rw [List.getElem?_eq_getElem (by omega), List.getElem?_eq_getElem (by omega)]
      simp only [Option.map_eq_none_iff, ih]
      omega
    · rw [show l[d - 1]? = none from List.getElem?_eq_none (by omega)]
      cases l[0]? <;> simp <;> omega

theorem cutEnds_some_iff {α : Type} {ds : List Nat} (hd : ∀ d ∈ ds, 1 ≤ d) : ∀ (l : List α) (r : List (α × α)),
    cutEnds l ds = some r ↔ ∃ (blocks : List (List α)) (rest : List α), l = blocks.flatten ++ rest ∧ blocks.map List.length = ds ∧
      r.map (fun p => (some p.1, some p.2)) = blocks.map (fun b => (b.head?, b.getLast?)) := by
  induction ds with
  | nil =>
    intro l r
    simp only [cutEnds, Option.some.injEq]
    constructor
    · rintro rfl; exact ⟨[], l, by simp, rfl, rfl⟩
    · rintro ⟨bs, rest, h1, h2, h3⟩
      cases bs with
      | nil => cases r with
        | nil => rfl
        | cons => simp at h3
      | cons => simp at h2
  | cons d ds ih =>
    intro l r
    have h1 : 1 ≤ d := hd d List.mem_cons_self
    have ih := ih (fun x hx => hd x (List.mem_cons_of_mem _ hx)) (l.drop d)
    unfold cutEnds
    constructor
    · intro h
      split at h
      · rename_i a b ha hb
        rw [Option.map_eq_some_iff] at h
        obtain ⟨r', e1, rfl⟩ := h
        obtain ⟨bs, rest, g1, g2, g3⟩ := (ih r').1 e1
        have hl : d ≤ l.length := by
          have := (List.getElem?_eq_some_iff.1 hb).1
          omega
        refine ⟨l.take d :: bs, rest, ?_, ?_, ?_⟩
        · rw [List.flatten_cons, List.append_assoc, ← g1, List.take_append_drop]
        · rw [List.map_cons, g2, List.length_take, Nat.min_eq_left hl]
        · rw [List.map_cons, List.map_cons, g3]
          congr 2
          · rw [List.head?_take, if_neg (by omega), List.head?_eq_getElem?, ha]
          · rw [List.getLast?_eq_getElem?, List.length_take, Nat.min_eq_left hl, List.getElem?_take, if_pos (by omega), hb]
      · cases h
    · rintro ⟨bs, rest, g1, g2, g3⟩
      cases bs with
      | nil => simp at g2
      | cons b bs =>
        rw [List.map_cons, List.cons.injEq] at g2
        obtain ⟨g2, g4⟩ := g2
        cases r with
        | nil => simp at g3
        | cons p r =>
          simp only [List.map_cons, List.cons.injEq, Prod.mk.injEq] at g3
          obtain ⟨⟨g5, g6⟩, g7⟩ := g3
          rw [List.flatten_cons, List.append_assoc] at g1
          have hd' : l.drop d = bs.flatten ++ rest := by rw [g1, ← g2, List.drop_left]
          have e0 : l[0]? = some p.1 := by
            rw [g1, List.getElem?_append_left (by omega), g5, List.head?_eq_getElem?]
          have e1 : l[d - 1]? = some p.2 := by
            rw [g1, List.getElem?_append_left (by omega), g6, List.getLast?_eq_getElem?, g2]
          rw [e0, e1]
          simp only [Option.map_eq_some_iff]
          exact ⟨r, (ih r).2 ⟨bs, rest, hd', g4, g7⟩, rfl⟩

/-! ### Stages of a project -/

theorem ends_of_lists {tb : Timeboard L} {s : Schedule L} {d : Duty} {lo hi : Int} {ws : List (Workshift L)} (h : tb.ListsDuty s d lo hi ws)
    {n : Nat} {x : Workshift L} (hx : ws[n]? = some x) :
    Workshift.new tb x.loc (some s) = .ok x ∧ 0 ≤ x.loc ∧ x.loc < tb.timeline.len ∧ tb.ListsDuty s d x.loc hi (x :: ws.drop (n + 1)) := by
  have hm : x ∈ ws := List.mem_of_getElem? hx
  have h1 := (h.2.2 x.loc).1 ⟨x, hm, rfl⟩
  refine ⟨h.2.1 x hm, h1.2.2.1, h1.2.2.2.1, h.tail (n := n) ?_⟩
  obtain ⟨hn, e⟩ := List.getElem?_eq_some_iff.1 hx
  rw [List.drop_eq_getElem_cons hn, e]

theorem Timeboard.stagesAfter_eq {tb : Timeboard L} (h : tb.Reachable) {s : Schedule L} (hs : tb.Owns s) {ds : List Nat} (hd : ∀ d ∈ ds, 1 ≤ d) :
    ∀ (b : Workshift L) (post : List (Workshift L)), tb.ListsDuty s .on b.loc (tb.timeline.len - 1) (b :: post) →
      tb.stagesAfter b (ds.map (fun d : Nat => (d : Int))) = match cutEnds post ds with | some r => .ok r | none => .error .outOfBounds := by
  induction ds with
  | nil => intro b post _; rfl
  | cons d ds ih =>
    intro b post hl
    have h1 : 1 ≤ d := hd d List.mem_cons_self
    have ih := ih (fun x hx => hd x (List.mem_cons_of_mem _ hx))
    obtain ⟨b1, b2, b3, b4⟩ := ends_of_lists hl (n := 0) rfl
    have hroll := Workshift.roll_picks h ⟨b2, b3⟩ b1 hs hl 1
    rw [List.getElem?_cons_succ] at hroll
    simp only [List.map_cons, Timeboard.stagesAfter, Workshift.add]
    unfold cutEnds
    rw [show ((1 : Int)) = ((1 : Nat) : Int) from rfl, hroll]
    cases ha : post[0]? with
    | none => rfl
    | some a =>
      obtain ⟨a1, a2, a3, a4⟩ := ends_of_lists hl (n := 1) (x := a) (by rw [List.getElem?_cons_succ]; exact ha)
      have hpost : a :: (b :: post).drop (1 + 1) = post := by
        cases post with
        | nil => simp at ha
        | cons p ps => simp at ha; simp [ha]
      rw [hpost] at a4
      have hr2 := Workshift.roll_picks h ⟨a2, a3⟩ a1 hs a4 (d - 1)
      have ec : ((d : Int) - ((1 : Nat) : Int)) = ((d - 1 : Nat) : Int) := by omega
      simp only [bind, Except.bind]
      rw [ec, hr2]
      cases hb : post[d - 1]? with
      | none => rfl
      | some b' =>
        obtain ⟨_, _, _, c4⟩ := ends_of_lists a4 hb
        rw [show d - 1 + 1 = d by omega] at c4
        simp only [ih b' _ c4]
        cases cutEnds (post.drop d) ds <;> rfl

end TB
