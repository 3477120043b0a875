import Verif.Lemmas.Names2
import Verif.Props.Reference
import Verif.Props.SameTimes
import Verif.Props.Frequencies
import Verif.Props.Construct
/-!
# C109: other names of the same frequency

A frequency may be called by different strings.  Whatever name is used, the results are the same; only the check of markers and
`count_periods` refuse some of the names.
-/
namespace TB
variable {L : Type}

/-- **C109**, which names mean the same: the same multiplier with the same kind of calendar periods; the month after which quarters are
called is only known up to three months. -/
theorem C109_which (f g : Freq) : f.SameAs g ↔ f.mult = g.mult ∧
    (f.base = g.base ∨ ∃ e e' : Fin 12, f.base = .Q e ∧ g.base = .Q e' ∧ (e : Nat) % 3 = (e' : Nat) % 3) := by
  constructor
  · intro h
    refine ⟨h.facts.2.2, ?_⟩
    have hp : f.base.print = g.base.print := by
      unfold Base.print
      exact List.map_congr_left (fun t _ => (h t).1)
    rcases Base.print_inj _ (Base.mem_all _) _ (Base.mem_all _) hp with e | ⟨e, _, e', _, h1, h2, h3⟩
    · exact .inl e
    · exact .inr ⟨e, e', h1, h2, h3⟩
  · rintro ⟨hm, hb⟩
    have hb : f.base.startOf = g.base.startOf ∧ f.base.ordOf = g.base.ordOf := by
      rcases hb with e | ⟨e, e', h1, h2, h3⟩
      · rw [e]; exact ⟨rfl, rfl⟩
      · rw [h1, h2]
        have : (((e : Nat) : Int) + 1) % 3 = (((e' : Nat) : Int) + 1) % 3 := by omega
        constructor
        · funext o; simp only [Base.startOf]; rw [this]
        · funext o; simp only [Base.ordOf]; rw [this]
    exact .of_facts hb.1 hb.2 hm

/-- **C109**, the names: 'W' is 'W-SUN', 'Q' is 'Q-DEC', 'A', 'Y', 'A-DEC' and 'Y-DEC' are the same, as are 'A' and 'Y' with any other
month, 'min' and 'T'; this with any multiplier, and the multiplier 1 may be left out. -/
theorem C109_names (n : Option Nat) (hn : n ≠ some 0) :
    Freq.SameAs ⟨n, .W none, hn⟩ ⟨n, .W (some 6), hn⟩ ∧ Freq.SameAs ⟨n, .Q none, hn⟩ ⟨n, .Q (some 11), hn⟩ ∧
    Freq.SameAs ⟨n, .A none, hn⟩ ⟨n, .A (some 11), hn⟩ ∧ Freq.SameAs ⟨n, .Y none, hn⟩ ⟨n, .A none, hn⟩ ∧
    (∀ m, Freq.SameAs ⟨n, .Y (some m), hn⟩ ⟨n, .A (some m), hn⟩) ∧ Freq.SameAs ⟨n, .min, hn⟩ ⟨n, .T, hn⟩ ∧
    ∀ d, Freq.SameAs ⟨some 1, d, by simp⟩ ⟨none, d, by simp⟩ := by
  refine ⟨?_, ?_, ?_, ?_, fun m => ?_, ?_, fun d => ?_⟩ <;> exact (C109_which _ _).2 ⟨rfl, .inl rfl⟩

/-- **C109**, finding intervals: the name of the period, and of the frequency of a Period, does not matter. -/
theorem C109_lookup (tb : Timeboard L) {f g : Freq} (h : f.SameAs g) :
    (∀ ref length clip closed sch, tb.getInterval ref length (some f) clip closed sch = tb.getInterval ref length (some g) clip closed sch) ∧
    (∀ ref length clip closed sch, tb.callN ref length (some f) clip closed sch = tb.callN ref length (some g) clip closed sch) ∧
    (∀ t length period clip closed sch, tb.getInterval (some (.period (Period.ofTime f t))) length period clip closed sch =
      tb.getInterval (some (.period (Period.ofTime g t))) length period clip closed sch) ∧
    ∀ t, tb.call1 (.period (Period.ofTime f t)) = tb.call1 (.period (Period.ofTime g t)) := by
  refine ⟨fun ref length clip closed sch => tb.getInterval_sameAs h ref length clip closed sch, ?_, ?_, ?_⟩
  · intro ref length clip closed sch
    unfold Timeboard.callN
    rw [tb.getInterval_sameAs h]
  · intro t length period clip closed sch
    exact tb.getInterval_samePeriod (h t).1 (h t).2 length period clip closed sch
  · intro t
    exact tb.call1_samePeriod (h t).1 (h t).2

/-- **C109**, counting periods: all the accepted names of the period give the same number or the same error.  The accepted ones are 'S',
'T', 'min', 'H', 'D', 'W', 'M', 'Q', 'A', 'Y'; 'W-SUN', '1D' and the like are refused unless the interval has no workshifts. -/
theorem C109_count_periods (v : Interval L) (tb : Timeboard L) {f g : Freq} (h : f.SameAs g) (hg : g ∈ countable) (d : Duty)
    (sch : Option (Schedule L)) :
    (f ∈ countable → v.countPeriods tb f d sch = v.countPeriods tb g d sch) ∧
    (f ∉ countable → v.countPeriods tb f d sch = if v.isVoid then .ok 0 else .error .unacceptablePeriod) := by
  have hs : ∀ x : Freq, supportedPeriod x = decide (x ∈ countable) := by
    intro x
    rw [Bool.eq_iff_iff, decide_eq_true_iff]
    obtain ⟨fac, den, hp⟩ := x
    unfold supportedPeriod countable
    cases fac with
    | some n => simp [Denom.freq]
    | none =>
      cases den with
      | W s => cases s <;> simp [Denom.freq]
      | Q s => cases s <;> simp [Denom.freq]
      | A s => cases s <;> simp [Denom.freq]
      | Y s => cases s <;> simp [Denom.freq]
      | _ => simp [Denom.freq]
  refine ⟨fun hf => v.countPeriods_sameAs tb h (by rw [hs, hs, decide_eq_true hf, decide_eq_true hg]) d sch, fun hf => ?_⟩
  unfold Interval.countPeriods
  rw [hs, decide_eq_false hf]
  simp

/-- **C109**, making timeboards: when the name of the base unit frequency and the names of the frequencies of the markers are changed, and
each marker is still accepted, or refused, as before, the same timeboard is made or the same error raised: the workshifts are the same,
duration included, and so is the answer to everything asked of the timeboard (C82, C98). -/
theorem C109_timeboard {ρ : Freq → Freq} (hρ : ∀ x : Freq, x.SameAs (ρ x)) {a a' : Args L} {bu : Freq} (hbu : a.freq.SameAs bu)
    (ha' : a' = { a with freq := bu, layout := a.layout.respell ρ })
    (hc : ∀ m, a.layout.UsesMarker m → checkGroupbyFreq a.freq m.each = checkGroupbyFreq bu (ρ m.each))
    (hn : ∀ m, a.layout.UsesMarker m → ∀ how ∈ m.ats, Nameless how)
    {heap : Heap L} {m : Memory L} (hm : heap.Shows m) :
    (∀ e, Timeboard.new a heap = .error e ↔ Timeboard.new a' heap = .error e) ∧
    ∀ tb tb' k k', Timeboard.new a heap = .ok (tb, k) → Timeboard.new a' heap = .ok (tb', k') →
      tb.Interchangeable tb' ∧ ∀ xs, tb.ListedAs xs ↔ tb'.ListedAs xs := by
  obtain ⟨h1, h2⟩ := Args.read_respell hρ hbu ha' (fun m hm => ⟨hc m hm, hn m hm⟩) m
  refine ⟨fun e => by rw [C97_error_iff hm, C97_error_iff hm]; exact h1 e, ?_⟩
  intro tb tb' k k' hnew hnew'
  obtain ⟨f, ps, m', hr, _, _⟩ := C97_read_back hm hnew
  obtain ⟨g, hfg, hr'⟩ := h2 f ps m' hr
  have hl := C98_list_read hm hnew hr
  have hl' := C98_list_read hm hnew' hr'
  have href : a'.refEnd = a.refEnd := by rw [ha']
  have he : ps.map (Piece.shift g a'.refEnd) = ps.map (Piece.shift f a.refEnd) := by
    apply List.map_congr_left
    intro p _
    unfold Piece.shift
    rw [href, hfg.unitStart, hfg.unitEnd]
  rw [he] at hl'
  have R := Timeboard.Reachable.new hnew
  have R' := Timeboard.Reachable.new hnew'
  refine ⟨⟨R, R', ⟨by rw [hl.1, hl'.1], ?_⟩, ?_, ?_⟩, ?_⟩
  · intro j h0 hj
    have hlen := hl.1
    generalize ps.map (Piece.shift f a.refEnd) = xs at hl hl' hlen
    have hlt : j.toNat < xs.length := by omega
    obtain ⟨w, w1, w2, w3, w4, w5, w6⟩ := hl.2 j.toNat _ (List.getElem?_eq_getElem hlt)
    obtain ⟨w', w1', w2', w3', w4', w5', w6'⟩ := hl'.2 j.toNat _ (List.getElem?_eq_getElem hlt)
    rw [show ((j.toNat : Nat) : Int) = j from by omega] at w1 w1'
    exact ⟨w, w', w1, w1', by rw [w6, w6'], by rw [w2, w2'], by rw [w3, w3'], by rw [w4, w4']⟩
  · obtain ⟨_, _, _, _, _, _, _, _, _, rfl⟩ := Timeboard.new_ok_iff.1 hnew
    obtain ⟨_, _, _, _, _, _, _, _, _, rfl⟩ := Timeboard.new_ok_iff.1 hnew'
    rw [ha']; rfl
  · obtain ⟨_, _, _, _, _, _, _, _, _, rfl⟩ := Timeboard.new_ok_iff.1 hnew
    obtain ⟨_, _, _, _, _, _, _, _, _, rfl⟩ := Timeboard.new_ok_iff.1 hnew'
    rw [ha']; rfl
  · intro xs
    obtain ⟨ys, hy, hu⟩ := C98_list R
    obtain ⟨ys', hy', hu'⟩ := C98_list R'
    have e1 := hu _ hl
    have e2 := hu' _ hl'
    constructor
    · intro h
      rw [hu _ h, ← e1]; exact hl'
    · intro h
      rw [hu' _ h, ← e2]; exact hl

/-- **C109**, the rules known to markers do not look at names. -/
theorem C109_rules : (∀ kw, Nameless (fromStartOfEach kw)) ∧ (∀ month week wday shift, Nameless (nthWeekdayOfMonth month week wday shift)) ∧
    ∀ orthodox shift kw, Nameless (fromEaster orthodox shift kw) :=
  ⟨nameless_fromStart, nameless_nthWeekday, nameless_easter⟩

/-- **C109**, what is refused: with base units of 'min' no marker is accepted, and no base units accept a marker of 'min' or, unless they are
years of the same name, a marker of 'Y'. -/
theorem C109_refused {a : Args L} {heap : Heap L} {m : Marker} (hw : a.worktimeSource = "duration" ∨ a.worktimeSource = "labels")
    (hv : a.freq.base.ordOf a.start ≤ a.freq.base.ordOf a.stop)
    (hl : (∃ es, a.layout = .organizer (.marker m) es) ∨ ∃ i, a.layout = .organizerRP (.marker m) i)
    (hf : a.freq.denom = .min ∨ m.each.denom = .min ∨ (∃ s, m.each.denom = .Y s ∧ a.freq.denom ≠ .Y s)) :
    Timeboard.new a heap = .error .unacceptablePeriod := by
  have h1 : ∀ x, a.layout ≠ .label x := by rcases hl with ⟨es, h⟩ | ⟨i, h⟩ <;> (intro x; rw [h]; simp)
  have h2 : ∀ i, a.layout ≠ .pattern (.rp i) := by rcases hl with ⟨es, h⟩ | ⟨i, h⟩ <;> (intro x; rw [h]; simp)
  refine (((C76_refusals a heap).2 h1 h2).2 hw).2 hv m ?_ hl
  rw [Bool.eq_false_iff]
  intro hacc
  have hal : a.freq.denom.Alias ∨ m.each.denom.Alias := by
    rcases hf with h | h | ⟨s, h, _⟩
    · rw [h]; exact .inl trivial
    · rw [h]; exact .inr trivial
    · rw [h]; exact .inr trivial
  have := (C47_aliases _ _ hal).1 hacc
  rcases hf with h | h | ⟨s, h, hne⟩
  · exact this.2.1 h
  · exact this.2.1 (this.1.trans h)
  · exact hne (this.1.trans h)

/-! ### Examples -/

/-- The names of the examples. -/
example : (Denom.W none).freq.SameAs (Denom.W (some 6)).freq ∧ Denom.T.freq.SameAs Denom.min.freq ∧
    (Denom.A none).freq.SameAs (Denom.Y (some 11)).freq ∧ (Denom.Q none).freq.SameAs (Denom.Q (some 2)).freq ∧
    Denom.D.freq.SameAs ⟨some 1, .D, by simp⟩ ∧ ¬ (Denom.Q none).freq.SameAs (Denom.Q (some 0)).freq ∧
    ¬ Denom.D.freq.SameAs ⟨some 24, .H, by simp⟩ := by
  simp only [C109_which]
  decide +kernel

namespace Ex

/-- Weeks are called 'W-SUN' instead of 'W'. -/
def sundays (f : Freq) : Freq := if f.denom = .W none then { f with denom := .W (some 6) } else f

theorem sundays_same (f : Freq) : f.SameAs (sundays f) := by
  rw [C109_which]
  unfold sundays
  split
  · rename_i h
    exact ⟨rfl, .inl (by unfold Freq.base; rw [h]; rfl)⟩
  · exact ⟨rfl, .inl rfl⟩

/-- The weeks of the example by another name. -/
def weekArgs1 : Args Int := { weekArgs with layout := weekArgs.layout.respell sundays }

/-- The only marker of the layout. -/
theorem week_marker {m : Marker} (h : weekArgs.layout.UsesMarker m) : m = { each := fW, ats := [] } := by
  rcases h with ⟨es, h⟩ | ⟨i, h⟩
  · cases h with
    | here => rfl
    | elem hl hw =>
      simp only [List.mem_singleton] at hl
      subst hl
      cases hw
  · cases h with
    | elem hl hw =>
      simp only [List.mem_singleton] at hl
      subst hl
      cases hw

/-- The hypotheses are met: days accept weeks by the name of 'W-SUN', too. -/
example : ∀ tb tb' k k', Timeboard.new weekArgs heap0 = .ok (tb, k) → Timeboard.new weekArgs1 heap0 = .ok (tb', k') →
    tb.Interchangeable tb' ∧ ∀ xs, tb.ListedAs xs ↔ tb'.ListedAs xs :=
  (C109_timeboard (a := weekArgs) (a' := weekArgs1) sundays_same (Freq.SameAs.refl _) rfl
    (fun m hm => by rw [week_marker hm]; decide +kernel) (fun m hm => by rw [week_marker hm]; simp)
    (m := fun _ => ([], 0)) heap0_shows).2

/-- Both can be made; with base units of '1D' the marker is refused. -/
example : (Timeboard.new weekArgs heap0).isOk = true ∧ (Timeboard.new weekArgs1 heap0).isOk = true ∧
    (Timeboard.new { weekArgs with freq := ⟨some 1, .D, by simp⟩ } heap0).map (fun _ => ()) = .error .unacceptablePeriod := by
  decide +kernel

-- Two weeks are counted as 'W' but not as 'W-SUN'.
#guard (week.getInterval (some (.pair (some (date 2017 1 2)) (some (date 2017 1 15))))).bind (fun v => v.countPeriods week (Denom.W none).freq) = .ok 2
#guard (week.getInterval (some (.pair (some (date 2017 1 2)) (some (date 2017 1 15))))).bind (fun v => v.countPeriods week (Denom.W (some 6)).freq) =
  .error .unacceptablePeriod

/-- The week of 10 January by either name; quarters after March are the quarters after December. -/
example :
    (week.getInterval (some (.point (date 2017 1 10))) none (some (Denom.W (some 6)).freq)).bind (fun v => v.count week) = .ok 5 ∧
    (week.getInterval (some (.point (date 2017 1 10))) none (some (Denom.Q (some 2)).freq)).bind (fun v => v.count week) = .ok 22 := by
  decide +kernel

end Ex

end TB
