import Verif.Spec.Seasons
import Verif.Lemmas.Seasons
import Verif.Props.Nested
/-! Property C105: the turn of an element of an organizer; seasons. -/
namespace TB
open TB.Ex
variable {L : Type}

theorem buildParts_ok {a : Args L} {f : Frame} {elems : List (Layout L)} : ∀ {ss : List Span},
    (∀ x ∈ ss, ∀ e ∈ elems, ∀ h, ∃ tb h', Timeboard.new (a.ofPart f x e) h = .ok (tb, h')) → ∀ (n : Nat) (heap : Heap L),
    ∃ r, buildParts a f elems n ss heap = .ok r
  | [], _, n, heap => ⟨_, rfl⟩
  | x :: ss, hh, n, heap => by
    unfold buildParts
    cases hc : cyclic elems n with
    | none => exact ⟨_, rfl⟩
    | some e =>
      obtain ⟨tb, h', hn⟩ := hh x (by simp) e (mem_of_cyclic hc) heap
      obtain ⟨r, hr⟩ := buildParts_ok (ss := ss) (fun y hy => hh y (by simp [hy])) (n + 1) h'
      simp only
      rw [hn]
      simp only
      rw [hr]
      exact ⟨_, rfl⟩

/-- Seasons on the spans of any division. -/
theorem seasons_at {a : Args L} {heap : Heap L} {m : Memory L} (hm : heap.Shows m) {cut : Cut} {seasons : List (Freq × List L)} {f : Frame}
    {ss : List Span} (hl : a.layout = .organizer cut (seasons.map season)) (hne : seasons ≠ []) (ha : a.amendments = [])
    (hw : a.worktimeSource ∈ ["duration", "labels"]) (hf : Frame.new a.freq a.start a.stop = .ok f) (hbu : a.freq.mult = 1)
    (hs : ∀ p ∈ seasons, p.2 ≠ [] ∧ p.1.mult = 1 ∧ checkGroupbyFreq a.freq p.1 = true)
    (hc : f.cut { first := 0, last := (f.n : Int) - 1 } cut = .ok ss) :
    ∃ tb heap', Timeboard.new a heap = .ok (tb, heap') ∧ tb.startTime = f.unitStart 0 ∧ ∀ t, tb.startTime ≤ t → t ≤ tb.endTime →
      ∃ (k : Nat) (x : Span) (p : Freq × List L) (w : Workshift L), ss[k]? = some x ∧ f.unitStart x.first ≤ t ∧ t ≤ f.unitEnd x.last ∧
        cyclic seasons k = some p ∧ tb.getWorkshift t = .ok w ∧ w.startTime tb = .ok (Period.ofTime a.freq t).startTime ∧ w.duration tb = .ok 1 ∧
        cyclic p.2 ((Period.ofTime a.freq t).ord - (Period.ofTime a.freq (Period.ofTime p.1 t).startTime).ord).toNat = some w.label := by
  have hff : f.freq = a.freq := by rw [Frame.new_ok_iff] at hf; rw [hf.2]
  have hn : 0 < f.n := Frame.new_valid hf
  have hwi : ({ first := 0, last := (f.n : Int) - 1 } : Span).Within f.n := ⟨Int.le_refl _, by simp only; omega, by simp only; omega⟩
  obtain ⟨ht, hin⟩ := Frame.cut_within hwi hc
  simp only at ht
  have hne' : seasons.map (season (L := L)) ≠ [] := by simpa using hne
  have hlev : ∀ e ∈ seasons.map (season (L := L)), e.Level f := by
    intro e he
    obtain ⟨p, _, rfl⟩ := List.mem_map.1 he
    unfold season
    simp [Layout.Level, Layout.LevelAll, (C104_level f).1]
  have hp : ∀ x p, ss.head? = some x → (seasons.map (season (L := L))).head? = some (.pattern p) → x.skipLeft = 0 := by
    intro x p _ h
    rw [List.head?_map, Option.map_eq_some_iff] at h
    obtain ⟨q, _, h⟩ := h
    cases h
  have hpart : ∀ x ∈ ss, Frame.new a.freq (f.unitStart x.first) (f.unitEnd x.last) = .ok (f.part x) := by
    intro x hx
    rw [← Frame.part_new f (hin x hx).2.1, hff]
  have h07 : ∀ x ∈ ss, ∀ p ∈ seasons, ∀ h, ∃ tb, Timeboard.new (a.ofPart f x (season p)) h = .ok (tb, h) ∧
      ∀ (t : Time) (sch : Option (Schedule L)), tb.startTime ≤ t → t ≤ tb.endTime →
        ∃ w, tb.getWorkshift t sch = .ok w ∧ w.startTime tb = .ok (Period.ofTime a.freq t).startTime ∧ w.duration tb = .ok 1 ∧
          cyclic p.2 ((Period.ofTime a.freq t).ord - (Period.ofTime a.freq (Period.ofTime p.1 t).startTime).ord).toNat = some w.label := by
    intro x hx p hp h
    obtain ⟨p1, p2, p3⟩ := hs p hp
    exact C07_calendar_pattern (a := a.ofPart f x (season p)) (heap := h) ha rfl p1 hw (hpart x hx) p3 hbu p2
  obtain ⟨⟨tbs, heap1⟩, hb⟩ := buildParts_ok (a := a) (f := f) (elems := seasons.map season) (ss := ss) (by
    intro x hx e he h
    obtain ⟨p, hp, rfl⟩ := List.mem_map.1 he
    obtain ⟨tb, h1, _⟩ := h07 x hx p hp h
    exact ⟨tb, h, h1⟩) 0 heap
  have hw' : a.worktimeSource = "duration" ∨ a.worktimeSource = "labels" := by simpa using hw
  have hN := C104_nested a heap m hm hl hne' ha hw' hf hc hlev hp
  rw [hb] at hN
  obtain ⟨tb, heap2, _, _, htb, _⟩ := hN
  obtain ⟨_, b1, b2⟩ := Timeboard.new_bounds ha htb hf
  refine ⟨tb, heap2, htb, b1, ?_⟩
  intro t t1 t2
  rw [b1] at t1
  rw [b2] at t2
  have i1 := (f.unitStart_le_at 0 t).1 t1
  have i2 : f.unitNo t ≤ (f.n : Int) - 1 := by
    have := f.unitStart_le_at ((f.n : Int) - 1 + 1) t
    rw [Frame.unitEnd_eq] at t2
    omega
  obtain ⟨k, x, hx, x1, x2⟩ := ht.cover i1 i2
  have hxm := List.mem_of_getElem? hx
  have h1 : f.unitStart x.first ≤ t := (f.unitStart_le_at _ _).2 x1
  have h2 : t ≤ f.unitEnd x.last := by
    have := f.unitStart_le_at (x.last + 1) t
    rw [Frame.unitEnd_eq]
    omega
  obtain ⟨e, part, h3, h4, s, w, w', c1, c2, c3, c4, c5, c6, c7⟩ := C104_lookup hm hl hne' ha hf hc hlev hp htb hb hx h1 h2
  rw [cyclic_map, Option.map_eq_some_iff] at c1
  obtain ⟨p, p1, rfl⟩ := c1
  obtain ⟨part', d1, d2⟩ := h07 x hxm p (mem_of_cyclic p1) h3
  rw [c3] at d1
  cases d1
  obtain ⟨_, b3, b4⟩ := Timeboard.new_bounds (a := a.ofPart f x (season p)) ha c3 (hpart x hxm)
  have hnn : ((f.part x).n : Int) = x.last - x.first + 1 := by
    unfold Frame.part
    have := (hin x hxm).2.1
    simp only; omega
  rw [Frame.part_unitStart, Int.zero_add] at b3
  rw [Frame.part_unitEnd, hnn, show x.last - x.first + 1 - 1 + x.first = x.last by omega] at b4
  obtain ⟨v, v1, v2, v3, v4⟩ := d2 t none (by omega) (by omega)
  rw [c6] at v1
  cases v1
  obtain ⟨q1, q2, q3, q4⟩ := c5
  obtain ⟨r1, r2, r3, r4⟩ := c7
  refine ⟨k, x, p, w, hx, h1, h2, p1, c4, ?_, ?_, ?_⟩
  · rw [q1, ← v2, r1]
  · rw [q3, ← v3, r3]
  · rw [v4, r4, q4]

/-- **C105**, a marker without `at`: the seasons change with each (multiplied) period, counted from the period of the start. -/
theorem C105_calendar {a : Args L} {heap : Heap L} {m : Memory L} (hm : heap.Shows m) {each : Freq} {seasons : List (Freq × List L)} {f : Frame}
    (hl : a.layout = .organizer (.marker ⟨each, []⟩) (seasons.map season)) (hne : seasons ≠ []) (ha : a.amendments = [])
    (hw : a.worktimeSource ∈ ["duration", "labels"]) (hf : Frame.new a.freq a.start a.stop = .ok f) (hbu : a.freq.mult = 1)
    (hs : ∀ p ∈ seasons, p.2 ≠ [] ∧ p.1.mult = 1 ∧ checkGroupbyFreq a.freq p.1 = true) (hc : checkGroupbyFreq a.freq each = true) :
    ∃ tb heap', Timeboard.new a heap = .ok (tb, heap') ∧ ∀ t, tb.startTime ≤ t → t ≤ tb.endTime →
      ∃ p w, cyclic seasons (((Period.ofTime each t).ord - (Period.ofTime each tb.startTime).ord) / each.mult).toNat = some p ∧
        tb.getWorkshift t = .ok w ∧ w.startTime tb = .ok (Period.ofTime a.freq t).startTime ∧ w.duration tb = .ok 1 ∧
        cyclic p.2 ((Period.ofTime a.freq t).ord - (Period.ofTime a.freq (Period.ofTime p.1 t).startTime).ord).toNat = some w.label := by
  have hff : f.freq = a.freq := by rw [Frame.new_ok_iff] at hf; rw [hf.2]
  have hn : 0 < f.n := Frame.new_valid hf
  obtain ⟨ss, g1, _⟩ := Frame.partition_calendar (f := f) (s := { first := 0, last := (f.n : Int) - 1 }) (each := each) (by rw [hff]; exact hc) (by simp)
    (by simp only; omega) (by simp only; omega)
  rw [← Frame.cut_partition hn] at g1
  obtain ⟨tb, heap', h1, h2, h3⟩ := seasons_at hm hl hne ha hw hf hbu hs g1
  refine ⟨tb, heap', h1, ?_⟩
  intro t t1 t2
  obtain ⟨k, x, p, w, e1, e2, e3, e4, e5⟩ := h3 t t1 t2
  refine ⟨p, w, ?_, e5⟩
  have := Frame.number_calendar hn g1 e1 e2 e3
  rw [← e4]
  congr 1
  rw [h2]
  show ((each.base.ordOf t - each.base.ordOf (f.unitStart 0)) / (each.mult : Int)).toNat = k
  omega

/-- **C105**, a regular marker: the seasons change with each mark after the start. -/
theorem C105_marks {a : Args L} {heap : Heap L} {m : Memory L} (hm : heap.Shows m) {mk : Marker} {seasons : List (Freq × List L)} {f : Frame}
    (hl : a.layout = .organizer (.marker mk) (seasons.map season)) (hne : seasons ≠ []) (ha : a.amendments = [])
    (hw : a.worktimeSource ∈ ["duration", "labels"]) (hf : Frame.new a.freq a.start a.stop = .ok f)
    (hs : ∀ p ∈ seasons, p.2 ≠ [] ∧ p.1.mult = 1 ∧ checkGroupbyFreq a.freq p.1 = true) (hc : checkGroupbyFreq a.freq mk.each = true)
    (hr : mk.Regular a.freq) :
    ∃ tb heap', Timeboard.new a heap = .ok (tb, heap') ∧ ∀ t, tb.startTime ≤ t → t ≤ tb.endTime →
      ∀ ms : List Time, ms.Pairwise (· < ·) → (∀ u, u ∈ ms ↔ (mk.Mark a.freq u ∧ tb.startTime < u ∧ u ≤ t)) →
      ∃ p w, cyclic seasons ms.length = some p ∧
        tb.getWorkshift t = .ok w ∧ w.startTime tb = .ok (Period.ofTime a.freq t).startTime ∧ w.duration tb = .ok 1 ∧
        cyclic p.2 ((Period.ofTime a.freq t).ord - (Period.ofTime a.freq (Period.ofTime p.1 t).startTime).ord).toNat = some w.label := by
  have hff : f.freq = a.freq := by rw [Frame.new_ok_iff] at hf; rw [hf.2]
  have hn : 0 < f.n := Frame.new_valid hf
  have hr' : mk.Regular f.freq := by rw [hff]; exact hr
  obtain ⟨ss, _, g1, _⟩ := Frame.partition_regular (f := f) (s := { first := 0, last := (f.n : Int) - 1 }) hr' (by rw [hff]; exact hc) (by simp)
    (by simp only; omega) (by simp only; omega)
  rw [← Frame.cut_partition hn] at g1
  obtain ⟨tb, heap', h1, h2, h3⟩ := seasons_at hm hl hne ha hw hf (checkGroupby_unit hc hr.mult).1 hs g1
  refine ⟨tb, heap', h1, ?_⟩
  intro t t1 t2 ms hp hms
  obtain ⟨k, x, p, w, e1, e2, e3, e4, e5⟩ := h3 t t1 t2
  refine ⟨p, w, ?_, e5⟩
  have := Frame.number_regular hn hr' g1 e1 e2 e3 hp (by intro u; rw [hms u, h2, hff])
  rw [← this]
  exact e4

/-- **C105**, two seasons of `n` periods each, counted from the period of the start: the first one lasts for `n` periods out of `2 n`. -/
theorem C105_two_periods {a : Args L} {heap : Heap L} {m : Memory L} (hm : heap.Shows m) {each : Freq} {p q : Freq × List L} {f : Frame}
    (hl : a.layout = .organizer (.marker ⟨each, []⟩) [season p, season q]) (ha : a.amendments = [])
    (hw : a.worktimeSource ∈ ["duration", "labels"]) (hf : Frame.new a.freq a.start a.stop = .ok f) (hbu : a.freq.mult = 1)
    (hs : ∀ r ∈ [p, q], r.2 ≠ [] ∧ r.1.mult = 1 ∧ checkGroupbyFreq a.freq r.1 = true) (hc : checkGroupbyFreq a.freq each = true) :
    ∃ tb heap', Timeboard.new a heap = .ok (tb, heap') ∧ ∀ t, tb.startTime ≤ t → t ≤ tb.endTime →
      ∃ r w, ((r = p ∧ ((Period.ofTime each t).ord - (Period.ofTime each tb.startTime).ord) % (2 * each.mult) < each.mult) ∨
          (r = q ∧ (each.mult : Int) ≤ ((Period.ofTime each t).ord - (Period.ofTime each tb.startTime).ord) % (2 * each.mult))) ∧
        tb.getWorkshift t = .ok w ∧ w.startTime tb = .ok (Period.ofTime a.freq t).startTime ∧ w.duration tb = .ok 1 ∧
        cyclic r.2 ((Period.ofTime a.freq t).ord - (Period.ofTime a.freq (Period.ofTime r.1 t).startTime).ord).toNat = some w.label := by
  obtain ⟨tb, heap', h1, h2⟩ := C105_calendar hm (seasons := [p, q]) hl (by simp) ha hw hf hbu hs hc
  refine ⟨tb, heap', h1, ?_⟩
  intro t t1 t2
  obtain ⟨r, w, r1, r2⟩ := h2 t t1 t2
  refine ⟨r, w, ?_, r2⟩
  have hd := each.base.ordOf_mono (show tb.startTime ≤ t from t1)
  have hd : 0 ≤ (Period.ofTime each t).ord - (Period.ofTime each tb.startTime).ord := by
    show 0 ≤ each.base.ordOf t - each.base.ordOf tb.startTime
    omega
  generalize (Period.ofTime each t).ord - (Period.ofTime each tb.startTime).ord = d at hd r1 ⊢
  have hmu := each.mult_pos
  have hmu : (0 : Int) < each.mult := by omega
  generalize (each.mult : Int) = n at hmu r1 ⊢
  have hq : 0 ≤ d / n := Int.ediv_nonneg hd (by omega)
  have e1 := Int.mul_ediv_add_emod d n
  have e2 := Int.emod_nonneg d (show n ≠ 0 by omega)
  have e3 := Int.emod_lt_of_pos d hmu
  unfold cyclic at r1
  simp only [List.length_cons, List.length_nil] at r1
  generalize d / n = u at hq e1 r1
  generalize d % n = v at e1 e2 e3
  have key : d % (2 * n) = v + n * (u % 2) := by
    have : d = v + n * (u % 2) + 2 * n * (u / 2) := by
      have hu := Int.mul_ediv_add_emod u 2
      have : n * u = n * (u % 2) + 2 * n * (u / 2) := by
        conv => lhs; rw [← hu]
        rw [Int.mul_add, Int.mul_comm 2 n, Int.mul_assoc n 2]
        omega
      omega
    rw [this, Int.add_mul_emod_self_left]
    rcases Int.emod_two_eq u with h | h
    · rw [h]; exact Int.emod_eq_of_lt (by omega) (by omega)
    · rw [h]; exact Int.emod_eq_of_lt (by omega) (by omega)
  rw [key]
  rcases Int.emod_two_eq u with h | h
  · rw [show u.toNat % (0 + 1 + 1) = 0 by omega] at r1
    rw [h]
    simp at r1
    exact .inl ⟨r1.symm, by omega⟩
  · rw [show u.toNat % (0 + 1 + 1) = 1 by omega] at r1
    rw [h]
    simp at r1
    exact .inr ⟨r1.symm, by omega⟩

/-- **C105**, two seasons with a beginning and an end in every year, of whatever length: the first one is applied in the season of the start. -/
theorem C105_summer {a : Args L} {heap : Heap L} {m : Memory L} (hm : heap.Shows m) {mk : Marker} {p q : Freq × List L} {f : Frame}
    (hl : a.layout = .organizer (.marker mk) [season p, season q]) (ha : a.amendments = [])
    (hw : a.worktimeSource ∈ ["duration", "labels"]) (hf : Frame.new a.freq a.start a.stop = .ok f)
    (hs : ∀ r ∈ [p, q], r.2 ≠ [] ∧ r.1.mult = 1 ∧ checkGroupbyFreq a.freq r.1 = true) (hc : checkGroupbyFreq a.freq mk.each = true)
    (hr : mk.Regular a.freq) {A B : Int → Time} (hAB : ∀ y, A y < B y) (hBA : ∀ y, B y < A (y + 1))
    (hmk : ∀ u, mk.Mark a.freq u ↔ ∃ y, u = A y ∨ u = B y) :
    ∃ tb heap', Timeboard.new a heap = .ok (tb, heap') ∧ ∀ t, tb.startTime ≤ t → t ≤ tb.endTime →
      ∃ r w, ((r = p ∧ (InSummer A B t ↔ InSummer A B tb.startTime)) ∨ (r = q ∧ ¬ (InSummer A B t ↔ InSummer A B tb.startTime))) ∧
        tb.getWorkshift t = .ok w ∧ w.startTime tb = .ok (Period.ofTime a.freq t).startTime ∧ w.duration tb = .ok 1 ∧
        cyclic r.2 ((Period.ofTime a.freq t).ord - (Period.ofTime a.freq (Period.ofTime r.1 t).startTime).ord).toNat = some w.label := by
  have hff : f.freq = a.freq := by rw [Frame.new_ok_iff] at hf; rw [hf.2]
  obtain ⟨tb, heap', h1, h2⟩ := C105_marks hm (seasons := [p, q]) hl (by simp) ha hw hf hs hc hr
  refine ⟨tb, heap', h1, ?_⟩
  intro t t1 t2
  obtain ⟨_, b1, _⟩ := Timeboard.new_bounds ha h1 hf
  obtain ⟨ms, m1, m2⟩ := f.exists_marks (P := mk.Mark a.freq)
    (fun u hu => ⟨_, Marker.Regular.mark_unit (f := f) (by rw [hff]; exact hr) (by rw [hff]; exact (checkGroupby_unit hc hr.mult).1) (by rw [hff]; exact hu)⟩) t
  rw [← b1] at m2
  obtain ⟨r, w, r1, r2⟩ := h2 t t1 t2 ms m1 m2
  refine ⟨r, w, ?_, r2⟩
  have hpar := summer_parity hAB hBA ms tb.startTime t t1 m1 (by intro u; rw [m2 u, hmk u])
  unfold cyclic at r1
  simp only [List.length_cons, List.length_nil] at r1
  rw [Iff.comm (a := InSummer A B t), ← hpar]
  rcases Nat.mod_two_eq_zero_or_one ms.length with h | h
  · rw [show ms.length % (0 + 1 + 1) = 0 from h] at r1
    simp at r1
    exact .inl ⟨r1.symm, h⟩
  · rw [show ms.length % (0 + 1 + 1) = 1 from h] at r1
    simp at r1
    exact .inr ⟨r1.symm, by omega⟩

theorem addOffset_date (y m d : Int) : addOffset (monthStart (12 * y) * nsDay) (some { months := m - 1, days := d - 1 }) =
    (monthStart (12 * y + (m - 1)) + (d - 1)) * nsDay := by
  have h1 : dayOf (monthStart (12 * y) * nsDay) = monthStart (12 * y) := Int.mul_ediv_cancel _ (by decide)
  have h2 : monthStart (12 * y) * nsDay % nsDay = 0 := Int.mul_emod_left _ _
  show addMonths _ (12 * 0 + (m - 1)) + ((7 * 0 + (d - 1)) * nsDay + 0 * nsHour + 0 * nsMin + 0 * nsSec) = _
  unfold addMonths
  simp only
  rw [h1, h2]
  unfold dayOfMonth
  rw [monthOf_monthStart, show 12 * y + (12 * 0 + (m - 1)) = 12 * y + (m - 1) by omega]
  have : 1 ≤ monthLen (12 * y + (m - 1)) := by
    have := monthStart_lt_succ (12 * y + (m - 1))
    unfold monthLen; omega
  rw [show min (monthStart (12 * y) - monthStart (12 * y) + 1) (monthLen (12 * y + (m - 1))) = 1 by omega]
  rw [show monthStart (12 * y + (m - 1)) + 1 - 1 = monthStart (12 * y + (m - 1)) by omega, show (7 * 0 + (d - 1)) = d - 1 by omega, Int.add_mul]
  omega

/-- **C105**, seasons by dates: in every year the summer begins on the day `d1` of the month `m1` and ends before the day `d2` of the month
`m2`; the timeboard may start at any time. -/
theorem C105_dates {a : Args L} {heap : Heap L} {m : Memory L} (hm : heap.Shows m) {p q : Freq × List L} {f : Frame} {m1 d1 m2 d2 : Int}
    (hl : a.layout = .organizer (.marker (offsetMarker fA [{ months := m1 - 1, days := d1 - 1 }, { months := m2 - 1, days := d2 - 1 }]))
      [season p, season q]) (ha : a.amendments = [])
    (hw : a.worktimeSource ∈ ["duration", "labels"]) (hf : Frame.new a.freq a.start a.stop = .ok f) (hbu : a.freq.Daily)
    (hs : ∀ r ∈ [p, q], r.2 ≠ [] ∧ r.1.mult = 1 ∧ checkGroupbyFreq a.freq r.1 = true) (hc : checkGroupbyFreq a.freq fA = true)
    (h1 : 1 ≤ m1) (h2 : m1 < m2) (h3 : m2 ≤ 12) (h4 : 1 ≤ d1 ∧ d1 ≤ 28) (h5 : 1 ≤ d2 ∧ d2 ≤ 28) :
    ∃ tb heap', Timeboard.new a heap = .ok (tb, heap') ∧ ∀ t, tb.startTime ≤ t → t ≤ tb.endTime →
      ∃ r w, ((r = p ∧ (InSummer (date · m1 d1) (date · m2 d2) t ↔ InSummer (date · m1 d1) (date · m2 d2) tb.startTime)) ∨
          (r = q ∧ ¬ (InSummer (date · m1 d1) (date · m2 d2) t ↔ InSummer (date · m1 d1) (date · m2 d2) tb.startTime))) ∧
        tb.getWorkshift t = .ok w ∧ w.startTime tb = .ok (Period.ofTime a.freq t).startTime ∧ w.duration tb = .ok 1 ∧
        cyclic r.2 ((Period.ofTime a.freq t).ord - (Period.ofTime a.freq (Period.ofTime r.1 t).startTime).ord).toNat = some w.label := by
  obtain ⟨g1, g2⟩ := C75_offset_marks (bu := a.freq) (each := fA) (offs := [{ months := m1 - 1, days := d1 - 1 }, { months := m2 - 1, days := d2 - 1 }]) hc rfl
    (by simp) (by
      intro o ho
      rcases List.mem_cons.1 ho with rfl | ho
      · exact ⟨Int.le_refl _, by simp only; omega, Int.le_refl _, by simp only; omega, Int.le_refl _, Int.le_refl _, Int.le_refl _⟩
      · rw [List.mem_singleton.1 ho]
        exact ⟨Int.le_refl _, by simp only; omega, Int.le_refl _, by simp only; omega, Int.le_refl _, Int.le_refl _, Int.le_refl _⟩)
  have hpos : (0 : Int) < nsDay := by decide
  refine C105_summer hm hl ha hw hf hs hc g1 (A := (date · m1 d1)) (B := (date · m2 d2)) ?_ ?_ ?_
  · intro y
    refine Int.mul_lt_mul_of_pos_right ?_ hpos
    unfold dayNum
    have q1 := monthStart_step (12 * (y - 1970) + (m1 - 1))
    have q2 := monthStart_le (show 12 * (y - 1970) + (m1 - 1) + 1 ≤ 12 * (y - 1970) + (m2 - 1) by omega)
    omega
  · intro y
    refine Int.mul_lt_mul_of_pos_right ?_ hpos
    unfold dayNum
    have q1 := monthStart_step (12 * (y - 1970) + (m2 - 1))
    have q2 := monthStart_le (show 12 * (y - 1970) + (m2 - 1) + 1 ≤ 12 * (y + 1 - 1970) + (m1 - 1) by omega)
    omega
  · intro u
    rw [g2 u]
    have key : ∀ m' d' : Int, 1 ≤ m' → m' ≤ 12 → 1 ≤ d' → d' ≤ 28 → ∀ p' : Period, p'.freq = fA →
        addOffset p'.startTime (some { months := m' - 1, days := d' - 1 }) = date (p'.ord + 1970) m' d' ∧ date (p'.ord + 1970) m' d' ≤ p'.endTime ∧
        snap a.freq (date (p'.ord + 1970) m' d') = date (p'.ord + 1970) m' d' := by
      intro m' d' a1 a2 a3 a4 p' hp'
      obtain ⟨fr, o⟩ := p'
      simp only at hp'
      subst hp'
      refine ⟨?_, ?_, ?_⟩
      · show addOffset (monthStart (12 * o + 0) * nsDay) _ = _
        rw [Int.add_zero, addOffset_date]
        unfold date dayNum
        rw [Int.add_sub_cancel]
      · show (monthStart (12 * (o + 1970 - 1970) + (m' - 1)) + (d' - 1)) * nsDay ≤ monthStart (12 * (o + 1) + 0) * nsDay - 1
        have q1 := monthStart_step (12 * (o + 1970 - 1970) + (m' - 1))
        have q2 := monthStart_le (show 12 * (o + 1970 - 1970) + (m' - 1) + 1 ≤ 12 * (o + 1) + 0 by omega)
        have := Int.mul_lt_mul_of_pos_right (show monthStart (12 * (o + 1970 - 1970) + (m' - 1)) + (d' - 1) < monthStart (12 * (o + 1) + 0) by omega) hpos
        omega
      · exact hbu.snap_midnight _
    constructor
    · rintro ⟨off, hoff, p', hp', _, rfl⟩
      rcases List.mem_cons.1 hoff with rfl | hoff
      · obtain ⟨k1, k2, k3⟩ := key m1 d1 h1 (by omega) h4.1 h4.2 p' hp'
        exact ⟨p'.ord + 1970, .inl (by rw [k1, k3])⟩
      · rw [List.mem_singleton.1 hoff]
        obtain ⟨k1, k2, k3⟩ := key m2 d2 (by omega) h3 h5.1 h5.2 p' hp'
        exact ⟨p'.ord + 1970, .inr (by rw [k1, k3])⟩
    · rintro ⟨y, rfl | rfl⟩
      · obtain ⟨k1, k2, k3⟩ := key m1 d1 h1 (by omega) h4.1 h4.2 ⟨fA, y - 1970⟩ rfl
        simp only [Int.sub_add_cancel] at k1 k2 k3
        exact ⟨_, List.mem_cons_self, ⟨fA, y - 1970⟩, rfl, by rw [k1]; exact k2, by rw [k1, k3]⟩
      · obtain ⟨k1, k2, k3⟩ := key m2 d2 (by omega) h3 h5.1 h5.2 ⟨fA, y - 1970⟩ rfl
        simp only [Int.sub_add_cancel] at k1 k2 k3
        exact ⟨_, List.mem_cons_of_mem _ (List.mem_singleton.2 rfl), ⟨fA, y - 1970⟩, rfl, by rw [k1]; exact k2, by rw [k1, k3]⟩

/-- The museum of the documentation (making_a_timeboard.rst:389-396). -/
def museumArgs : Args Int where
  freq := fD
  start := date 2015 11 1
  stop := date 2017 10 31
  layout := .organizer (.marker ⟨⟨some 6, .M, by decide⟩, []⟩) [season (fW, [0, 0, 1, 1, 0, 0, 0]), season (fW, [0, 1, 1, 1, 1, 1, 1])]
  selector := fun l => l != 0
  defaultLabel := 0

/-- The same with seasons from the first of May and from 16 September, from the middle of a summer. -/
def museumDates : Args Int where
  freq := fD
  start := date 2015 7 4
  stop := date 2017 10 31
  layout := .organizer (.marker (offsetMarker fA [{ months := 5 - 1, days := 1 - 1 }, { months := 9 - 1, days := 16 - 1 }]))
    [season (fW, [0, 1, 1, 1, 1, 1, 1]), season (fW, [0, 0, 1, 1, 0, 0, 0])]
  selector := fun l => l != 0
  defaultLabel := 0

/-- The labels at several times. -/
def labelsAt (a : Args Int) (ts : List Time) : Option (List Int) :=
  match Timeboard.new a heap0 with
  | .ok (tb, _) => ts.mapM (fun t => ((tb.getWorkshift t).map Workshift.label).toOption)
  | .error _ => none

-- the hypotheses are met, ...
example := C105_two_periods (a := museumArgs) (heap := heap0) (m := fun _ => ([], 0)) (fun _ => .inl ⟨rfl, rfl, rfl⟩) rfl rfl (by decide)
  (f := { freq := fD, o0 := dayOf (date 2015 11 1), n := 731 }) (by decide +kernel) (by decide) (by decide) (by decide)
example := C105_dates (a := museumDates) (heap := heap0) (m := fun _ => ([], 0)) (fun _ => .inl ⟨rfl, rfl, rfl⟩) rfl rfl (by decide)
  (f := { freq := fD, o0 := dayOf (date 2015 7 4), n := 851 }) (by decide +kernel) (.inr (.inr (.inr rfl))) (by decide) (by decide) (by decide) (by decide) (by decide)
  (by decide) (by decide)
-- ... and Tuesdays and Wednesdays at the ends of April, of October and of the next April are labelled as the seasons demand
example : labelsAt museumArgs [date 2016 4 26, date 2016 4 27, date 2016 5 3, date 2016 5 4, date 2016 10 25, date 2016 11 1, date 2016 11 2] =
    some [0, 1, 1, 1, 1, 0, 1] := by decide +kernel
example : labelsAt museumDates [date 2015 7 6, date 2015 7 7, date 2015 9 15, date 2015 9 17, date 2015 9 18, date 2016 4 26, date 2016 5 3, date 2017 9 15,
    date 2017 9 16] = some [0, 1, 1, 1, 0, 0, 1, 1, 0] := by decide +kernel

end TB
