import Verif.Lemmas.Names
import Verif.Model.When
/-! Methods with frequencies which mean the same periods. -/
namespace TB
variable {L : Type}

/-- Periods with the same start and end are the same to a timeboard. -/
theorem Timeboard.locsByPeriod_same (tb : Timeboard L) {p q : Period} (h1 : p.startTime = q.startTime) (h2 : p.endTime = q.endTime)
    (clip dropHead dropTail : Bool) : tb.locsByPeriod p clip dropHead dropTail = tb.locsByPeriod q clip dropHead dropTail := by
  unfold Timeboard.locsByPeriod
  rw [h1, h2]

theorem Timeboard.getInterval_sameAs (tb : Timeboard L) {f g : Freq} (h : f.SameAs g) (ref : Option IvlRef) (length : Option Int)
    (clip : Bool) (closed : String) (sch : Option (Schedule L)) :
    tb.getInterval ref length (some f) clip closed sch = tb.getInterval ref length (some g) clip closed sch := by
  have : ∀ b c, tb.intervalLocs ref length (some f) clip b c = tb.intervalLocs ref length (some g) clip b c := by
    intro b c
    unfold Timeboard.intervalLocs
    cases length with
    | some n => rfl
    | none =>
      cases ref with
      | none => rfl
      | some r =>
        cases r with
        | pair _ _ => rfl
        | short => rfl
        | period p => rfl
        | point t => exact tb.locsByPeriod_same (h t).1 (h t).2 _ _ _
  unfold Timeboard.getInterval
  simp only [this]

theorem Timeboard.getInterval_samePeriod (tb : Timeboard L) {p q : Period} (h1 : p.startTime = q.startTime) (h2 : p.endTime = q.endTime)
    (length : Option Int) (period : Option Freq) (clip : Bool) (closed : String) (sch : Option (Schedule L)) :
    tb.getInterval (some (.period p)) length period clip closed sch = tb.getInterval (some (.period q)) length period clip closed sch := by
  have : ∀ b c, tb.intervalLocs (some (.period p)) length period clip b c = tb.intervalLocs (some (.period q)) length period clip b c := by
    intro b c
    unfold Timeboard.intervalLocs
    cases length with
    | some n =>
      cases period with
      | some _ => rfl
      | none =>
        simp only [Timeboard.locsByLength, Option.bind_some, IvlRef.toTime?]
        rw [h1]
    | none =>
      cases period with
      | some _ => exact tb.locsByPeriod_same h1 h2 _ _ _
      | none => exact tb.locsByPeriod_same h1 h2 _ _ _
  unfold Timeboard.getInterval
  simp only [this]

theorem Timeboard.call1_samePeriod (tb : Timeboard L) {p q : Period} (h1 : p.startTime = q.startTime) (h2 : p.endTime = q.endTime) :
    tb.call1 (.period p) = tb.call1 (.period q) := by
  unfold Timeboard.call1
  rw [tb.getInterval_samePeriod h1 h2]
  simp only [IvlRef.toTime?]
  rw [h1]

theorem periodLoop_sameAs (tb : Timeboard L) {f g : Freq} (h : f.SameAs g) (d : Duty) (s : Schedule L) :
    ∀ os, periodLoop tb f d s os = periodLoop tb g d s os
  | [] => rfl
  | o :: os => by
    obtain ⟨h1, h2, h3⟩ := h.facts
    unfold periodLoop
    rw [tb.getInterval_samePeriod (p := ⟨f, o⟩) (q := ⟨g, o⟩) (by simp only [Period.startTime, h1]) (by simp only [Period.endTime, h1, h3]),
      periodLoop_sameAs tb h d s os]

theorem Frame.Alike.getLoc {f g : Frame} (h : f.Alike g) (t : Time) : f.getLoc t = g.getLoc t := by
  unfold Frame.getLoc Frame.endTime Frame.startTime
  rw [h.unitEnd, h.unitStart, h.n, h.startTimes]

theorem Interval.countPeriods_sameAs (v : Interval L) (tb : Timeboard L) {f g : Freq} (h : f.SameAs g) (hf : supportedPeriod f = supportedPeriod g)
    (d : Duty) (sch : Option (Schedule L)) : v.countPeriods tb f d sch = v.countPeriods tb g d sch := by
  have hb : ∀ (s : Schedule L) (x y : Frame) (a b : Time), x.Alike y → v.countPeriodsBody tb f d s x a b = v.countPeriodsBody tb g d s y a b := by
    intro s x y a b hxy
    unfold Interval.countPeriodsBody
    rw [hxy.ords, periodLoop_sameAs tb h]
    simp only [hxy.getLoc, hxy.unitEnd]
  unfold Interval.countPeriods
  rw [hf]
  split
  · rfl
  · split
    · rfl
    · cases timeOrTypeError (v.startTime tb) with
      | error e => rfl
      | ok a =>
        cases timeOrTypeError (v.endTime tb) with
        | error e => rfl
        | ok b =>
          obtain ⟨k1, k2⟩ := h.frame_new a b
          simp only [bind, Except.bind]
          cases hx : Frame.new f a b with
          | error e => rw [(k1 e).1 hx]
          | ok x =>
            cases hy : Frame.new g a b with
            | error e => rw [(k1 e).2 hy] at hx; cases hx
            | ok y =>
              simp only [hb _ _ _ _ _ (k2 x y hx hy)]

/-! ### Rules -/

theorem nameless_fromStart (kw : Option Offset) : Nameless (fromStartOfEach kw) := by
  intro pi pi' bu bu' hb hn hf hs
  have ha := Frame.Alike.of_start hf hn hs
  unfold fromStartOfEach
  rw [ha.startTimes, ha.endTimes]
  simp only [snap_sameAs hb]

theorem nameless_nthWeekday (month week wday : Int) (shift : Option Int) : Nameless (nthWeekdayOfMonth month week wday shift) := by
  intro pi pi' bu bu' hb hn hf hs
  have ha := Frame.Alike.of_start hf hn hs
  unfold nthWeekdayOfMonth
  rw [ha.startTimes, ha.endTimes]

theorem nameless_easter (orthodox : Bool) (shift : Option Int) (kw : Option Offset) : Nameless (fromEaster orthodox shift kw) := by
  intro pi pi' bu bu' hb hn hf hs
  have ha := Frame.Alike.of_start hf hn hs
  have hy : ∀ o, periodYear pi.freq o = periodYear pi'.freq o := by
    intro o; unfold periodYear; rw [hf.facts.1]
  unfold fromEaster
  rw [ha.startTimes, ha.endTimes, ha.ords]
  simp only [snap_sameAs hb, hy]

end TB
