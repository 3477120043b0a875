import Verif.Spec.IntKinds
import Verif.Lemmas.Intervals
/-! Kinds of integers as bounds of intervals. -/
namespace TB
variable {L : Type}

theorem greater_val (x y : KInt) : (KInt.greater x y).val = max x.val y.val := by
  have hmx : max x.val y.val = if x.val ≤ y.val then y.val else x.val := rfl
  unfold KInt.greater
  rw [hmx]
  split <;> split <;> omega

theorem lesser_val (x y : KInt) : (KInt.lesser x y).val = min x.val y.val := by
  have hmn : min x.val y.val = if x.val ≤ y.val then x.val else y.val := rfl
  unfold KInt.lesser
  rw [hmn]
  split <;> split <;> omega

theorem max_np_iff (u v : KInterval L) : (KInt.greater u.lo v.lo).np = true ↔ BeginIsNumpy u v := by
  unfold KInt.greater BeginIsNumpy KInterval.lo
  split <;> simp only <;> simp only at * <;> constructor
  · intro h; exact .inr ⟨by omega, h⟩
  · rintro (⟨h, _⟩ | ⟨_, h⟩)
    · omega
    · exact h
  · intro h; exact .inl ⟨by omega, h⟩
  · rintro (⟨_, h⟩ | ⟨h, _⟩)
    · exact h
    · omega

theorem min_np_iff (u v : KInterval L) : (KInt.lesser u.hi v.hi).np = true ↔ EndIsNumpy u v := by
  unfold KInt.lesser EndIsNumpy KInterval.hi
  split <;> simp only <;> simp only at * <;> constructor
  · intro h; exact .inr ⟨by omega, h⟩
  · rintro (⟨h, _⟩ | ⟨_, h⟩)
    · omega
    · exact h
  · intro h; exact .inl ⟨by omega, h⟩
  · rintro (⟨_, h⟩ | ⟨h, _⟩)
    · exact h
    · omega

/-- Integers of Python as bounds. -/
theorem make_ints (tb : Timeboard L) {a b : KInt} (ha : a.np = false) (hb : b.np = false) (s : Option (Schedule L)) (void : Bool) :
    KInterval.make tb (.int a) (.int b) s void = (Interval.make tb (a.val, b.val) s void).map (fun v => ⟨v, false, false⟩) := by
  unfold KInterval.make Interval.make handleBoundK handleBound
  simp only [ha, hb, Bool.false_eq_true, if_false]
  by_cases h1 : 0 ≤ a.val ∧ a.val < tb.timeline.len
  · by_cases h2 : 0 ≤ b.val ∧ b.val < tb.timeline.len
    · simp only [if_pos h1, if_pos h2]
      cases void <;> simp only [Bool.false_eq_true, if_false, if_true] <;> split <;> simp only [Except.map, ha, hb]
    · simp only [if_pos h1, if_neg h2, Except.map]
  · simp only [if_neg h1, Except.map]

/-- Workshifts as bounds. -/
theorem make_workshifts (tb : Timeboard L) (a b : KWorkshift L) (s : Option (Schedule L)) (void : Bool) :
    KInterval.make tb (.workshift a) (.workshift b) s void = (Interval.make tb (a.ws.loc, b.ws.loc) s void).map (fun v => ⟨v, a.np, b.np⟩) := by
  unfold KInterval.make Interval.make handleBoundK handleBound
  by_cases h1 : 0 ≤ a.ws.loc ∧ a.ws.loc < tb.timeline.len
  · by_cases h2 : 0 ≤ b.ws.loc ∧ b.ws.loc < tb.timeline.len
    · simp only [if_pos h1, if_pos h2]
      cases void <;> simp only [Bool.false_eq_true, if_false, if_true] <;> split <;> simp only [Except.map]
    · simp only [if_pos h1, if_neg h2, Except.map]
  · simp only [if_neg h1, Except.map]

/-- An integer of numpy as a bound. -/
theorem make_numpy (tb : Timeboard L) {a b : KInt} (h0 : 0 ≤ a.val) (h1 : a.val < tb.timeline.len) (h : a.np = true ∨ b.np = true)
    (s : Option (Schedule L)) (void : Bool) : KInterval.make tb (.int a) (.int b) s void = .error .typeError := by
  unfold KInterval.make handleBoundK
  by_cases ha : a.np = true
  · simp only [ha, if_true]
  · have hb : b.np = true := by
      rcases h with h | h
      · exact absurd h ha
      · exact h
    simp only [ha, hb, Bool.false_eq_true, if_false, if_true, if_pos (And.intro h0 h1)]

theorem KInterval.make_plain {tb : Timeboard L} {a b : KInt} {s : Option (Schedule L)} {void : Bool} {v : KInterval L}
    (h : KInterval.make tb (.int a) (.int b) s void = .ok v) : v.Plain := by
  cases ha : a.np
  · cases hb : b.np
    · rw [make_ints tb ha hb] at h
      revert h
      cases Interval.make tb (a.val, b.val) s void with
      | error e => intro h; cases h
      | ok x => intro h; cases h; exact ⟨rfl, rfl⟩
    · exfalso
      unfold KInterval.make handleBoundK at h
      simp only [ha, hb, Bool.false_eq_true, if_false, if_true] at h
      by_cases h1 : 0 ≤ a.val ∧ a.val < tb.timeline.len
      · simp only [if_pos h1] at h; cases h
      · simp only [if_neg h1] at h; cases h
  · exfalso
    unfold KInterval.make handleBoundK at h
    simp only [ha, if_true] at h
    cases h

/-- The largest of two positions and the smallest of two positions on the timeline are on the timeline. -/
theorem greater_range {tb : Timeboard L} {u v : KInterval L} (hu : u.ivl.Fine tb) (hv : v.ivl.Fine tb) :
    0 ≤ (KInt.greater u.lo v.lo).val ∧ (KInt.greater u.lo v.lo).val < tb.timeline.len := by
  have h1 := hu.nonneg
  have h2 := hu.lt
  have h3 := hv.nonneg
  have h4 := hv.lt
  unfold KInt.greater KInterval.lo
  split <;> simp only <;> omega

/-- What `overlap` does, by the kinds of the bounds. -/
theorem KInterval.overlap_cases {tb : Timeboard L} {u v : KInterval L} (hu : u.ivl.Fine tb) (hv : v.ivl.Fine tb) (hn : u.ivl.isVoid = false)
    (s : Option (Schedule L)) :
    ((BeginIsNumpy u v ∨ EndIsNumpy u v) → u.overlap tb v s = .error .typeError) ∧
    (¬ (BeginIsNumpy u v ∨ EndIsNumpy u v) → u.overlap tb v s = (u.ivl.overlap tb v.ivl s).map (fun x => ⟨x, false, false⟩)) := by
  have hr := greater_range hu hv
  unfold KInterval.overlap Interval.overlap
  simp only [hn, Bool.false_eq_true, if_false]
  constructor
  · intro h
    rw [← max_np_iff, ← min_np_iff] at h
    rw [make_numpy tb hr.1 hr.2 h]
  · intro h
    rw [← max_np_iff, ← min_np_iff] at h
    have h1 : (KInt.greater u.lo v.lo).np = false := by
      cases e : (KInt.greater u.lo v.lo).np
      · rfl
      · exact absurd (.inl e) h
    have h2 : (KInt.lesser u.hi v.hi).np = false := by
      cases e : (KInt.lesser u.hi v.hi).np
      · rfl
      · exact absurd (.inr e) h
    have e1 : (KInt.greater u.lo v.lo).val = max u.ivl.lo v.ivl.lo := greater_val _ _
    have e2 : (KInt.lesser u.hi v.hi).val = min u.ivl.hi v.ivl.hi := lesser_val _ _
    rw [make_ints tb h1 h2, make_ints tb h1 h2, e1, e2]
    unfold Interval.new Interval.newVoid
    cases Interval.make tb (max u.ivl.lo v.ivl.lo, min u.ivl.hi v.ivl.hi) (some (s.getD u.ivl.schedule)) false with
    | ok x => rfl
    | error e => cases e <;> rfl

theorem KInterval.overlap_void {tb : Timeboard L} {u : KInterval L} (hu : u.ivl.Fine tb) (hn : u.ivl.isVoid = true) (v : KInterval L)
    (s : Option (Schedule L)) :
    ((u.np0 = true ∨ u.np1 = true) → u.overlap tb v s = .error .typeError) ∧
    (u.Plain → u.overlap tb v s = (u.ivl.overlap tb v.ivl s).map (fun x => ⟨x, false, false⟩)) := by
  have h1 := hu.nonneg
  have h2 := hu.lt
  unfold KInterval.overlap Interval.overlap
  simp only [hn, if_true]
  constructor
  · intro h
    exact make_numpy tb h1.1 h2.1 h _ _
  · rintro ⟨h3, h4⟩
    exact make_ints tb h3 h4 _ _

/-- The bounds of an interval made of workshifts. -/
theorem KInterval.of_workshifts {tb : Timeboard L} {a b : KWorkshift L} {s : Option (Schedule L)} {v : KInterval L}
    (h : KInterval.make tb (.workshift a) (.workshift b) s false = .ok v) :
    Interval.new tb (a.ws.loc, b.ws.loc) s = .ok v.ivl ∧ v.np0 = a.np ∧ v.np1 = b.np := by
  rw [make_workshifts] at h
  revert h
  unfold Interval.new
  cases Interval.make tb (a.ws.loc, b.ws.loc) s false with
  | error e => intro h; cases h
  | ok x => intro h; cases h; exact ⟨rfl, rfl, rfl⟩

theorem Except.map_ok_inv {α β : Type} {f : α → β} {x : Except Err α} {y : β} (h : x.map f = .ok y) : ∃ a, x = .ok a ∧ f a = y := by
  cases x with
  | error e => cases h
  | ok a => cases h; exact ⟨a, rfl, rfl⟩

theorem Timeboard.Derived.numpy {tb : Timeboard L} {w : KWorkshift L} (h : tb.Derived w) : w.np = true := by
  cases h with
  | forward h => obtain ⟨a, _, rfl⟩ := Except.map_ok_inv h; rfl
  | back h => obtain ⟨a, _, rfl⟩ := Except.map_ok_inv h; rfl
  | nth h => obtain ⟨a, _, rfl⟩ := Except.map_ok_inv h; rfl
  | listed h hx =>
    obtain ⟨a, _, rfl⟩ := Except.map_ok_inv h
    obtain ⟨y, _, rfl⟩ := List.mem_map.1 hx
    rfl

/-- The portion of another interval fails exactly where the overlap does. -/
theorem KInterval.portion_cases {tb : Timeboard L} {u v : KInterval L} (hn : u.ivl.isVoid = false) (d : Duty) (s : Option (Schedule L)) :
    (u.overlap tb v s = .error .typeError → u.whatPortionOf tb v d s = .error .typeError) ∧
    (u.overlap tb v s = (u.ivl.overlap tb v.ivl s).map (fun x => ⟨x, false, false⟩) → u.whatPortionOf tb v d s = u.ivl.whatPortionOf tb v.ivl d s) := by
  have e1 : u.overlap tb v (some (s.getD u.ivl.schedule)) = u.overlap tb v s := by
    unfold KInterval.overlap; simp only [Option.getD_some]
  have e2 : u.ivl.overlap tb v.ivl (some (s.getD u.ivl.schedule)) = u.ivl.overlap tb v.ivl s := by
    unfold Interval.overlap; simp only [Option.getD_some]
  unfold KInterval.whatPortionOf Interval.whatPortionOf
  simp only [hn, Bool.false_eq_true, if_false]
  rw [e1, e2]
  constructor
  · intro h; rw [h]; rfl
  · intro h
    rw [h]
    cases u.ivl.overlap tb v.ivl s with
    | error e => rfl
    | ok x => rfl

end TB
