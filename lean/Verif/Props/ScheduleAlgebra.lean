import Verif.Spec.ScheduleAlgebra
import Verif.Props.Together
import Verif.Props.Defaults
import Verif.Props.NthRoll
import Verif.Props.Dataframe
import Verif.Examples.Boards
/-! Property C124: schedules made of two others. -/
namespace TB
open TB.Ex
variable {L : Type}

/-- At each position the pair of (either, both) is the pair of the two schedules, in one order or the other. -/
theorem duty_pairs {tb : Timeboard L} (hvd : tb.Valid) {e b s t : Schedule L} (he : tb.Either e s t) (hb : tb.Both b s t) {d : Duty}
    (hd : d = .on ∨ d = .off ∨ d = .any) {k : Int} (h0 : 0 ≤ k) (h1 : k < tb.timeline.len) {l : L} (hl : tb.timeline.label k = .ok l) :
    (dutyMatches d e.selector l = dutyMatches d s.selector l ∧ dutyMatches d b.selector l = dutyMatches d t.selector l) ∨
    (dutyMatches d e.selector l = dutyMatches d t.selector l ∧ dutyMatches d b.selector l = dutyMatches d s.selector l) := by
  have key : ∀ x : Schedule L, tb.DutyAt x .on k ↔ x.selector l = true := by
    intro x
    rw [hvd.dutyAt_iff]
    constructor
    · rintro ⟨_, _, l', hl', hm⟩
      rw [hl] at hl'; cases hl'
      simpa [dutyMatches] using hm
    · intro hx
      exact ⟨h0, h1, l, hl, by simpa [dutyMatches] using hx⟩
  have he' := he k
  have hb' := hb k
  rw [key, key, key] at he' hb'
  rcases hd with rfl | rfl | rfl <;> simp only [dutyMatches] <;>
    cases hx : e.selector l <;> cases hy : b.selector l <;> cases hz : s.selector l <;> cases hw : t.selector l <;> simp_all

theorem sum_filter_swap {p q r o : Int → Bool} (f : Int → Int) : ∀ {ks : List Int}, (∀ k ∈ ks, (p k = q k ∧ o k = r k) ∨ (p k = r k ∧ o k = q k)) →
    ((ks.filter p).map f).sum + ((ks.filter o).map f).sum = ((ks.filter q).map f).sum + ((ks.filter r).map f).sum
  | [], _ => rfl
  | k :: ks, h => by
    have ih := sum_filter_swap f (ks := ks) (fun x hx => h x (by simp [hx]))
    have hk := h k (by simp)
    simp only [List.filter_cons]
    cases hp : p k <;> cases hq : q k <;> cases hr : r k <;> cases ho : o k <;> simp [hp, hq, hr, ho] at hk ⊢ <;> omega

theorem sum_mapM_swap {P Q R O : Int → Except Err Rat} : ∀ {ks : List Int}, (∀ k ∈ ks, (P k = Q k ∧ O k = R k) ∨ (P k = R k ∧ O k = Q k)) →
    ∀ x y, (ks.mapM Q).map List.sum = .ok x → (ks.mapM R).map List.sum = .ok y →
    ∃ a b, (ks.mapM P).map List.sum = .ok a ∧ (ks.mapM O).map List.sum = .ok b ∧ a + b = x + y
  | [], _, x, y, hx, hy => ⟨0, 0, rfl, rfl, by cases hx; cases hy; rfl⟩
  | k :: ks, h, x, y, hx, hy => by
    rw [List.mapM_cons] at hx hy
    cases hq : Q k with
    | error e => rw [hq] at hx; cases hx
    | ok q =>
    cases hr : R k with
    | error e => rw [hr] at hy; cases hy
    | ok r =>
    cases hqs : ks.mapM Q with
    | error e => rw [hq, hqs] at hx; cases hx
    | ok qs =>
    cases hrs : ks.mapM R with
    | error e => rw [hr, hrs] at hy; cases hy
    | ok rs =>
    rw [hq, hqs] at hx
    rw [hr, hrs] at hy
    have hx' : (q :: qs).sum = x := Except.ok.inj hx
    have hy' : (r :: rs).sum = y := Except.ok.inj hy
    obtain ⟨a, b, ha, hb, hab⟩ := sum_mapM_swap (ks := ks) (fun z hz => h z (by simp [hz])) qs.sum rs.sum (by rw [hqs]; rfl) (by rw [hrs]; rfl)
    cases hps : ks.mapM P with
    | error e => rw [hps] at ha; cases ha
    | ok ps =>
    cases hos : ks.mapM O with
    | error e => rw [hos] at hb; cases hb
    | ok os =>
    rw [hps] at ha
    rw [hos] at hb
    have ha' : ps.sum = a := Except.ok.inj ha
    have hb' : os.sum = b := Except.ok.inj hb
    rw [List.sum_cons] at hx' hy'
    rcases h k (by simp) with ⟨h1, h2⟩ | ⟨h1, h2⟩
    · refine ⟨q + a, r + b, ?_, ?_, ?_⟩
      · rw [List.mapM_cons, h1, hq, hps, ← ha']; rfl
      · rw [List.mapM_cons, h2, hr, hos, ← hb']; rfl
      · rw [← hx', ← hy']; grind
    · refine ⟨r + a, q + b, ?_, ?_, ?_⟩
      · rw [List.mapM_cons, h1, hr, hps, ← ha']; rfl
      · rw [List.mapM_cons, h2, hq, hos, ← hb']; rfl
      · rw [← hx', ← hy']; grind

/-- **C124.** If a workshift is on duty under `e` when it is under `s` or `t`, and under `b` when it is under both, then what an interval
has under `e` and `b` together is what it has under `s` and `t` together: counts, total durations and worktimes, for each duty. -/
theorem C124_together {tb : Timeboard L} (h : tb.Reachable) {v : Interval L} (hv : tb.HasInterval v) {e b s t : Schedule L}
    (oe : tb.Owns e) (ob : tb.Owns b) (os : tb.Owns s) (ot : tb.Owns t) (he : tb.Either e s t) (hb : tb.Both b s t) {d : Duty}
    (hd : d = .on ∨ d = .off ∨ d = .any) (num : L → Option Rat) :
    (∃ p q x y, v.count tb d (some e) = .ok p ∧ v.count tb d (some b) = .ok q ∧ v.count tb d (some s) = .ok x ∧
      v.count tb d (some t) = .ok y ∧ p + q = x + y) ∧
    (∃ p q x y, v.totalDuration tb d (some e) = .ok p ∧ v.totalDuration tb d (some b) = .ok q ∧ v.totalDuration tb d (some s) = .ok x ∧
      v.totalDuration tb d (some t) = .ok y ∧ p + q = x + y) ∧
    (∀ x y, v.worktime tb num d (some s) = .ok x → v.worktime tb num d (some t) = .ok y →
      ∃ p q, v.worktime tb num d (some e) = .ok p ∧ v.worktime tb num d (some b) = .ok q ∧ p + q = x + y) ∧
    (∀ p q, v.worktime tb num d (some e) = .ok p → v.worktime tb num d (some b) = .ok q →
      ∃ x y, v.worktime tb num d (some s) = .ok x ∧ v.worktime tb num d (some t) = .ok y ∧ p + q = x + y) := by
  have hvd := h.valid
  have fv := hv.fine hvd
  have hso : ∀ {s : Schedule L}, tb.Owns s → tb.OwnsOpt (some s) := by intro s hs x hx; cases hx; exact hs
  have h0 := fv.nonneg
  have h1 := fv.lt
  have hmem : ∀ k ∈ intRange v.lo (v.hi + 1), 0 ≤ k ∧ k < tb.timeline.len := by
    intro k hk; rw [mem_intRange] at hk; omega
  have hpair : ∀ k ∈ intRange v.lo (v.hi + 1),
      let f := fun (x : Schedule L) => match tb.timeline.label k with | .ok l => dutyMatches d x.selector l | .error _ => false
      (f e = f s ∧ f b = f t) ∨ (f e = f t ∧ f b = f s) := by
    intro k hk
    obtain ⟨k0, k1⟩ := hmem k hk
    obtain ⟨l, hl⟩ := hvd.wf.label_ok k0 k1
    simp only [hl]
    exact duty_pairs hvd he hb hd k0 k1 hl
  have hwt : ∀ k ∈ intRange v.lo (v.hi + 1),
      let f := fun (x : Schedule L) => (Workshift.new tb k (some x)).bind (fun w => w.worktime tb num d (some x))
      (f e = f s ∧ f b = f t) ∨ (f e = f t ∧ f b = f s) := by
    intro k hk
    obtain ⟨k0, k1⟩ := hmem k hk
    obtain ⟨l, hl⟩ := hvd.wf.label_ok k0 k1
    have hx : ∀ x : Schedule L, ∀ y : Schedule L, dutyMatches d x.selector l = dutyMatches d y.selector l →
        (Workshift.new tb k (some x)).bind (fun w => w.worktime tb num d (some x)) =
        (Workshift.new tb k (some y)).bind (fun w => w.worktime tb num d (some y)) := by
      intro x y hxy
      obtain ⟨w, a1, a2, _, a4, _⟩ := Workshift.exists_of_range hvd (some x) k0 k1
      obtain ⟨w', b1, b2, _, b4, _⟩ := Workshift.exists_of_range hvd (some y) k0 k1
      rw [a1, b1]
      show w.worktime tb num d (some x) = w'.worktime tb num d (some y)
      rw [hl] at a4 b4
      have e1 : w.label = l := (Except.ok.inj a4).symm
      have e2 : w'.label = l := (Except.ok.inj b4).symm
      rw [Workshift.worktime_eq (by rw [a2, e1]; exact hl) num x hd, Workshift.worktime_eq (by rw [b2, e2]; exact hl) num y hd, e1, e2, hxy]
      unfold Workshift.duration
      rw [a2, b2]
    rcases duty_pairs hvd he hb hd k0 k1 hl with ⟨g1, g2⟩ | ⟨g1, g2⟩
    · exact .inl ⟨hx _ _ g1, hx _ _ g2⟩
    · exact .inr ⟨hx _ _ g1, hx _ _ g2⟩
  refine ⟨?_, ?_, ?_, ?_⟩
  · refine ⟨_, _, _, _, fv.count_eq hvd (hso oe) hd, fv.count_eq hvd (hso ob) hd, fv.count_eq hvd (hso os) hd, fv.count_eq hvd (hso ot) hd, ?_⟩
    have hl1 : ∀ xs : List Int, (xs.map (fun _ => (1 : Int))).sum = (xs.length : Int) := by
      intro xs
      induction xs with
      | nil => rfl
      | cons x xs ih => rw [List.map_cons, List.sum_cons, ih, List.length_cons]; omega
    have := sum_filter_swap (fun _ => 1) hpair
    rw [hl1, hl1, hl1, hl1] at this
    exact this
  · exact ⟨_, _, _, _, fv.totalDuration_eq hvd (hso oe) hd, fv.totalDuration_eq hvd (hso ob) hd, fv.totalDuration_eq hvd (hso os) hd,
      fv.totalDuration_eq hvd (hso ot) hd, sum_filter_swap _ hpair⟩
  · rw [worktime_by_positions h hv (hso oe) num hd, worktime_by_positions h hv (hso ob) num hd, worktime_by_positions h hv (hso os) num hd,
      worktime_by_positions h hv (hso ot) num hd]
    exact sum_mapM_swap hwt
  · rw [worktime_by_positions h hv (hso oe) num hd, worktime_by_positions h hv (hso ob) num hd, worktime_by_positions h hv (hso os) num hd,
      worktime_by_positions h hv (hso ot) num hd]
    intro p q hp hq
    obtain ⟨x, y, hx, hy, hxy⟩ := sum_mapM_swap (P := fun k => (Workshift.new tb k (some s)).bind (fun w => w.worktime tb num d (some s)))
      (O := fun k => (Workshift.new tb k (some t)).bind (fun w => w.worktime tb num d (some t))) (by
        intro k hk
        rcases hwt k hk with ⟨g1, g2⟩ | ⟨g1, g2⟩
        · exact .inl ⟨g1.symm, g2.symm⟩
        · exact .inr ⟨g2.symm, g1.symm⟩) p q hp hq
    exact ⟨x, y, hx, hy, hxy.symm⟩

/-- What rolling by zero steps leads to, in terms of positions. -/
theorem roll_zero {tb : Timeboard L} (h : tb.Reachable) {k : Int} {sw : Option (Schedule L)} {w : Workshift L}
    (hk : 0 ≤ k ∧ k < tb.timeline.len) (hw : Workshift.new tb k sw = .ok w) (h0 : tb.OwnsOpt sw) {s : Schedule L} (hs : tb.Owns s) {d : Duty}
    (hd : d = .on ∨ d = .off ∨ d = .any) :
    ((∃ k0, tb.ZeroForward s d k k0 ∧ (w.rollforward tb 0 d (some s)).map (fun w => w.loc) = .ok k0) ∨
      ((¬ ∃ k0, tb.ZeroForward s d k k0) ∧ (w.rollforward tb 0 d (some s)).map (fun w => w.loc) = .error .outOfBounds)) ∧
    ((∃ k0, tb.ZeroBack s d k k0 ∧ (w.rollback tb 0 d (some s)).map (fun w => w.loc) = .ok k0) ∨
      ((¬ ∃ k0, tb.ZeroBack s d k k0) ∧ (w.rollback tb 0 d (some s)).map (fun w => w.loc) = .error .outOfBounds)) := by
  have hso : tb.OwnsOpt (some s) := by intro x hx; cases hx; exact hs
  obtain ⟨f1, f2⟩ := C19_rollforward h hk hw h0 hso 0 hd
  obtain ⟨b1, b2⟩ := C20_rollback h hk hw h0 hso 0 hd
  constructor
  · cases hr : w.rollforward tb 0 d (some s) with
    | ok w' =>
      obtain ⟨k0, t, hz, hst, hn⟩ := (f1 w').1 hr
      have := (Timeboard.StepsTo.zero_iff hz.2.1).1 hst
      subst this
      exact .inl ⟨t, hz, by rw [← Workshift.new_loc hn]; rfl⟩
    | error e =>
      obtain ⟨rfl, hn⟩ := (f2 e).1 hr
      refine .inr ⟨?_, rfl⟩
      rintro ⟨k0, hz⟩
      exact hn ⟨k0, k0, hz, (Timeboard.StepsTo.zero_iff hz.2.1).2 rfl⟩
  · cases hr : w.rollback tb 0 d (some s) with
    | ok w' =>
      obtain ⟨k0, t, hz, hst, hn⟩ := (b1 w').1 hr
      have := (Timeboard.StepsTo.zero_iff hz.2.1).1 hst
      subst this
      exact .inl ⟨t, hz, by rw [← Workshift.new_loc hn]; rfl⟩
    | error e =>
      obtain ⟨rfl, hn⟩ := (b2 e).1 hr
      refine .inr ⟨?_, rfl⟩
      rintro ⟨k0, hz⟩
      exact hn ⟨k0, k0, hz, (Timeboard.StepsTo.zero_iff hz.2.1).2 rfl⟩

theorem zeroForward_exists {tb : Timeboard L} {s : Schedule L} {d : Duty} {k : Int} (n : Nat) : tb.DutyAt s d (k + n) →
    ∃ k0, tb.ZeroForward s d k k0 := by
  induction n using Nat.strongRecOn with
  | _ n ih =>
    intro hn
    by_cases hex : ∃ m : Nat, m < n ∧ tb.DutyAt s d (k + m)
    · obtain ⟨m, hm, hd⟩ := hex
      exact ih m hm hd
    · refine ⟨k + n, by omega, hn, ?_⟩
      intro j h1 h2 hj
      exact hex ⟨(j - k).toNat, by omega, by rw [show k + ((j - k).toNat : Int) = j by omega]; exact hj⟩

theorem zeroBack_exists {tb : Timeboard L} {s : Schedule L} {d : Duty} {k : Int} (n : Nat) : tb.DutyAt s d (k - n) →
    ∃ k0, tb.ZeroBack s d k k0 := by
  induction n using Nat.strongRecOn with
  | _ n ih =>
    intro hn
    by_cases hex : ∃ m : Nat, m < n ∧ tb.DutyAt s d (k - m)
    · obtain ⟨m, hm, hd⟩ := hex
      exact ih m hm hd
    · refine ⟨k - n, by omega, hn, ?_⟩
      intro j h1 h2 hj
      exact hex ⟨(k - j).toNat, by omega, by rw [show k - ((k - j).toNat : Int) = j by omega]; exact hj⟩

/-- **C124**, rolling: the nearest workshift which is on duty under one schedule or the other is the nearer of the two which are found
under each of them. -/
theorem C124_nearest {tb : Timeboard L} (h : tb.Reachable) {k : Int} {sw : Option (Schedule L)} {w : Workshift L}
    (hk : 0 ≤ k ∧ k < tb.timeline.len) (hw : Workshift.new tb k sw = .ok w) (h0 : tb.OwnsOpt sw) {e s t : Schedule L}
    (oe : tb.Owns e) (os : tb.Owns s) (ot : tb.Owns t) (he : tb.Either e s t) :
    (w.rollforward tb 0 .on (some e)).map (fun w => w.loc) =
      better min ((w.rollforward tb 0 .on (some s)).map (fun w => w.loc)) ((w.rollforward tb 0 .on (some t)).map (fun w => w.loc)) ∧
    (w.rollback tb 0 .on (some e)).map (fun w => w.loc) =
      better max ((w.rollback tb 0 .on (some s)).map (fun w => w.loc)) ((w.rollback tb 0 .on (some t)).map (fun w => w.loc)) := by
  obtain ⟨fe, be⟩ := roll_zero h hk hw h0 oe (.inl rfl)
  obtain ⟨fs, bs⟩ := roll_zero h hk hw h0 os (.inl rfl)
  obtain ⟨ft, bt⟩ := roll_zero h hk hw h0 ot (.inl rfl)
  constructor
  · have hno : ∀ {x : Schedule L}, (¬ ∃ k0, tb.ZeroForward x .on k k0) → ∀ j, k ≤ j → ¬ tb.DutyAt x .on j := by
      intro x hx j hj hd
      exact hx (zeroForward_exists (j - k).toNat (by rw [show k + ((j - k).toNat : Int) = j by omega]; exact hd))
    have hfound : ∀ z, tb.ZeroForward e .on k z → (w.rollforward tb 0 .on (some e)).map (fun w => w.loc) = .ok z := by
      intro z hz
      rcases fe with ⟨k0, hz', hr⟩ | ⟨hn, _⟩
      · rw [hr, hz.unique hz']
      · exact absurd ⟨z, hz⟩ hn
    rcases fs with ⟨x, hx, rx⟩ | ⟨hx, rx⟩ <;> rcases ft with ⟨y, hy, ry⟩ | ⟨hy, ry⟩ <;> rw [rx, ry]
    · apply hfound
      refine ⟨by have := hx.1; have := hy.1; omega, (he _).2 ?_, ?_⟩
      · rcases Int.le_total x y with g | g
        · rw [show min x y = x by omega]; exact .inl hx.2.1
        · rw [show min x y = y by omega]; exact .inr hy.2.1
      · intro j h1 h2 hj
        rcases (he j).1 hj with g | g
        · exact hx.2.2 j h1 (by omega) g
        · exact hy.2.2 j h1 (by omega) g
    · apply hfound
      refine ⟨hx.1, (he _).2 (.inl hx.2.1), ?_⟩
      intro j h1 h2 hj
      rcases (he j).1 hj with g | g
      · exact hx.2.2 j h1 h2 g
      · exact hno hy j h1 g
    · apply hfound
      refine ⟨hy.1, (he _).2 (.inr hy.2.1), ?_⟩
      intro j h1 h2 hj
      rcases (he j).1 hj with g | g
      · exact hno hx j h1 g
      · exact hy.2.2 j h1 h2 g
    · rcases fe with ⟨z, hz, _⟩ | ⟨_, hr⟩
      · rcases (he z).1 hz.2.1 with g | g
        · exact absurd g (hno hx z hz.1)
        · exact absurd g (hno hy z hz.1)
      · rw [hr]; rfl
  · have hno : ∀ {x : Schedule L}, (¬ ∃ k0, tb.ZeroBack x .on k k0) → ∀ j, j ≤ k → ¬ tb.DutyAt x .on j := by
      intro x hx j hj hd
      exact hx (zeroBack_exists (k - j).toNat (by rw [show k - ((k - j).toNat : Int) = j by omega]; exact hd))
    have hfound : ∀ z, tb.ZeroBack e .on k z → (w.rollback tb 0 .on (some e)).map (fun w => w.loc) = .ok z := by
      intro z hz
      rcases be with ⟨k0, hz', hr⟩ | ⟨hn, _⟩
      · rw [hr, hz.unique hz']
      · exact absurd ⟨z, hz⟩ hn
    rcases bs with ⟨x, hx, rx⟩ | ⟨hx, rx⟩ <;> rcases bt with ⟨y, hy, ry⟩ | ⟨hy, ry⟩ <;> rw [rx, ry]
    · apply hfound
      refine ⟨by have := hx.1; have := hy.1; omega, (he _).2 ?_, ?_⟩
      · rcases Int.le_total x y with g | g
        · rw [show max x y = y by omega]; exact .inr hy.2.1
        · rw [show max x y = x by omega]; exact .inl hx.2.1
      · intro j h1 h2 hj
        rcases (he j).1 hj with g | g
        · exact hx.2.2 j (by omega) h2 g
        · exact hy.2.2 j (by omega) h2 g
    · apply hfound
      refine ⟨hx.1, (he _).2 (.inl hx.2.1), ?_⟩
      intro j h1 h2 hj
      rcases (he j).1 hj with g | g
      · exact hx.2.2 j h1 h2 g
      · exact hno hy j h2 g
    · apply hfound
      refine ⟨hy.1, (he _).2 (.inr hy.2.1), ?_⟩
      intro j h1 h2 hj
      rcases (he j).1 hj with g | g
      · exact hno hx j h2 g
      · exact hy.2.2 j h1 h2 g
    · rcases be with ⟨z, hz, _⟩ | ⟨_, hr⟩
      · rcases (he z).1 hz.2.1 with g | g
        · exact absurd g (hno hx z hz.1)
        · exact absurd g (hno hy z hz.1)
      · rw [hr]; rfl

/-- What the first and the last workshift of an interval are, in terms of rolling from its ends. -/
theorem first_last_roll {tb : Timeboard L} (h : tb.Reachable) {a b : Int} {s0 : Option (Schedule L)} {v : Interval L}
    (hv : Interval.new tb (a, b) s0 = .ok v) (h0 : tb.OwnsOpt s0) {s : Schedule L} (hs : tb.Owns s)
    {wa wb : Workshift L} (ha : Workshift.new tb a s0 = .ok wa) (hb : Workshift.new tb b s0 = .ok wb) :
    (v.first tb .on (some s)).map (fun w => w.loc) = (match (wa.rollforward tb 0 .on (some s)).map (fun w => w.loc) with
      | .ok x => if x ≤ b then .ok x else .error .outOfBounds
      | .error _ => .error .outOfBounds) ∧
    (v.last tb .on (some s)).map (fun w => w.loc) = (match (wb.rollback tb 0 .on (some s)).map (fun w => w.loc) with
      | .ok x => if a ≤ x then .ok x else .error .outOfBounds
      | .error _ => .error .outOfBounds) := by
  have hso : tb.OwnsOpt (some s) := by intro x hx; cases hx; exact hs
  have key := fun w => C69_nth_is_rolling h hv h0 hso (d := .on) (.inl rfl) ha hb 0 w
  obtain ⟨ws, _, _, _, _, hf, hl⟩ := C18_nth_first_last h hv h0 hso .on (.inl rfl)
  constructor
  · cases hr : wa.rollforward tb 0 .on (some s) with
    | error e =>
      cases hx : v.first tb .on (some s) with
      | ok w => have := ((key w).1.1 hx).1; rw [show ((0 : Nat) : Int) = 0 from rfl, hr] at this; cases this
      | error e' =>
        rw [hx] at hf
        cases hh : ws.head? with
        | none => rw [hh] at hf; cases hf; rfl
        | some w => rw [hh] at hf; cases hf
    | ok w =>
      show _ = if w.loc ≤ b then Except.ok w.loc else .error Err.outOfBounds
      by_cases hc : w.loc ≤ b
      · rw [if_pos hc]
        have : v.first tb .on (some s) = .ok w := (key w).1.2 ⟨hr, hc⟩
        rw [this]; rfl
      · rw [if_neg hc]
        cases hx : v.first tb .on (some s) with
        | ok w' =>
          obtain ⟨g1, g2⟩ := (key w').1.1 hx
          rw [show ((0 : Nat) : Int) = 0 from rfl, hr] at g1
          cases g1; exact absurd g2 hc
        | error e' =>
          rw [hx] at hf
          cases hh : ws.head? with
          | none => rw [hh] at hf; cases hf; rfl
          | some w => rw [hh] at hf; cases hf
  · cases hr : wb.rollback tb 0 .on (some s) with
    | error e =>
      cases hx : v.last tb .on (some s) with
      | ok w => have := ((key w).2.1 hx).1; rw [show ((0 : Nat) : Int) = 0 from rfl, hr] at this; cases this
      | error e' =>
        rw [hx] at hl
        cases hh : ws.getLast? with
        | none => rw [hh] at hl; cases hl; rfl
        | some w => rw [hh] at hl; cases hl
    | ok w =>
      show _ = if a ≤ w.loc then Except.ok w.loc else .error Err.outOfBounds
      by_cases hc : a ≤ w.loc
      · rw [if_pos hc]
        have : v.last tb .on (some s) = .ok w := (key w).2.2 ⟨hr, hc⟩
        rw [this]; rfl
      · rw [if_neg hc]
        cases hx : v.last tb .on (some s) with
        | ok w' =>
          obtain ⟨g1, g2⟩ := (key w').2.1 hx
          rw [show ((0 : Nat) : Int) = 0 from rfl, hr] at g1
          cases g1; exact absurd g2 hc
        | error e' =>
          rw [hx] at hl
          cases hh : ws.getLast? with
          | none => rw [hh] at hl; cases hl; rfl
          | some w => rw [hh] at hl; cases hl

/-- **C124**, the first and the last workshift of an interval: under one schedule or the other it is the earlier (later) of the two. -/
theorem C124_first_last {tb : Timeboard L} (h : tb.Reachable) {a b : Int} {s0 : Option (Schedule L)} {v : Interval L}
    (hv : Interval.new tb (a, b) s0 = .ok v) (h0 : tb.OwnsOpt s0) {e s t : Schedule L} (oe : tb.Owns e) (os : tb.Owns s) (ot : tb.Owns t)
    (he : tb.Either e s t) :
    (v.first tb .on (some e)).map (fun w => w.loc) =
      better min ((v.first tb .on (some s)).map (fun w => w.loc)) ((v.first tb .on (some t)).map (fun w => w.loc)) ∧
    (v.last tb .on (some e)).map (fun w => w.loc) =
      better max ((v.last tb .on (some s)).map (fun w => w.loc)) ((v.last tb .on (some t)).map (fun w => w.loc)) := by
  have hvd := h.valid
  obtain ⟨r1, r2, r3, _⟩ := Interval.new_ok_iff.1 hv
  obtain ⟨wa, ha, _⟩ := Workshift.exists_of_range hvd s0 (k := a) (by omega) (by omega)
  obtain ⟨wb, hb, _⟩ := Workshift.exists_of_range hvd s0 (k := b) (by omega) (by omega)
  rw [(first_last_roll h hv h0 oe ha hb).1, (first_last_roll h hv h0 os ha hb).1, (first_last_roll h hv h0 ot ha hb).1,
    (first_last_roll h hv h0 oe ha hb).2, (first_last_roll h hv h0 os ha hb).2, (first_last_roll h hv h0 ot ha hb).2,
    (C124_nearest h ⟨by omega, by omega⟩ ha h0 oe os ot he).1, (C124_nearest h ⟨by omega, by omega⟩ hb h0 oe os ot he).2]
  constructor
  · rcases (roll_zero h ⟨by omega, by omega⟩ ha h0 os (.inl rfl)).1 with ⟨x, _, rx⟩ | ⟨_, rx⟩ <;>
      rcases (roll_zero h ⟨by omega, by omega⟩ ha h0 ot (.inl rfl)).1 with ⟨y, _, ry⟩ | ⟨_, ry⟩ <;> rw [rx, ry] <;> simp only [better]
    · by_cases g1 : x ≤ b <;> by_cases g2 : y ≤ b <;> simp only [g1, g2, if_true, if_false]
      · rw [if_pos (by omega)]
      · rw [if_pos (by omega), show min x y = x by omega]
      · rw [if_pos (by omega), show min x y = y by omega]
      · rw [if_neg (by omega)]
    · by_cases g1 : x ≤ b <;> simp only [g1, if_true, if_false]
    · by_cases g1 : y ≤ b <;> simp only [g1, if_true, if_false]
  · rcases (roll_zero h ⟨by omega, by omega⟩ hb h0 os (.inl rfl)).2 with ⟨x, _, rx⟩ | ⟨_, rx⟩ <;>
      rcases (roll_zero h ⟨by omega, by omega⟩ hb h0 ot (.inl rfl)).2 with ⟨y, _, ry⟩ | ⟨_, ry⟩ <;> rw [rx, ry] <;> simp only [better]
    · by_cases g1 : a ≤ x <;> by_cases g2 : a ≤ y <;> simp only [g1, g2, if_true, if_false]
      · rw [if_pos (by omega)]
      · rw [if_pos (by omega), show max x y = x by omega]
      · rw [if_pos (by omega), show max x y = y by omega]
      · rw [if_neg (by omega)]
    · by_cases g1 : a ≤ x <;> simp only [g1, if_true, if_false]
    · by_cases g1 : a ≤ y <;> simp only [g1, if_true, if_false]

/-- **C124**, where such schedules come from: selectors which answer `sel1(label) or sel2(label)` and `sel1(label) and sel2(label)`. -/
theorem C124_selectors {tb : Timeboard L} (h : tb.Reachable) {s t : Schedule L} {name : String} (hn : tb.getSchedule name = none) :
    (∃ e tb', tb.addSchedule name (fun l => s.selector l || t.selector l) = .ok (e, tb') ∧ tb.Owns e ∧ tb.Either e s t) ∧
    (∃ b tb', tb.addSchedule name (fun l => s.selector l && t.selector l) = .ok (b, tb') ∧ tb.Owns b ∧ tb.Both b s t) := by
  have hvd := h.valid
  have key : ∀ (x : Schedule L) (k : Int), tb.DutyAt x .on k ↔
      (0 ≤ k ∧ k < tb.timeline.len ∧ ∃ l, tb.timeline.label k = .ok l ∧ x.selector l = true) := by
    intro x k; rw [hvd.dutyAt_iff]; simp [dutyMatches]
  constructor
  · obtain ⟨e, tb', h1, _, h3, h4, _, _, _, h8, _⟩ := (C40_add_schedule tb name (fun l => s.selector l || t.selector l)).2 hn
    refine ⟨e, tb', h1, by unfold Timeboard.Owns at h4 ⊢; rwa [h8] at h4, ?_⟩
    intro k
    rw [key, key, key, h3]
    constructor
    · rintro ⟨a, b, l, c, d⟩
      rcases Bool.or_eq_true_iff.1 d with g | g
      · exact .inl ⟨a, b, l, c, g⟩
      · exact .inr ⟨a, b, l, c, g⟩
    · rintro (⟨a, b, l, c, g⟩ | ⟨a, b, l, c, g⟩)
      · exact ⟨a, b, l, c, by simp [g]⟩
      · exact ⟨a, b, l, c, by simp [g]⟩
  · obtain ⟨e, tb', h1, _, h3, h4, _, _, _, h8, _⟩ := (C40_add_schedule tb name (fun l => s.selector l && t.selector l)).2 hn
    refine ⟨e, tb', h1, by unfold Timeboard.Owns at h4 ⊢; rwa [h8] at h4, ?_⟩
    intro k
    rw [key, key, key, h3]
    constructor
    · rintro ⟨a, b, l, c, d⟩
      obtain ⟨g1, g2⟩ := Bool.and_eq_true_iff.1 d
      exact ⟨⟨a, b, l, c, g1⟩, ⟨a, b, l, c, g2⟩⟩
    · rintro ⟨⟨a, b, l, c, g⟩, ⟨_, _, l', c', g'⟩⟩
      rw [c] at c'; cases c'
      exact ⟨a, b, l, c, by simp [g, g']⟩

/-- Shifts of at least 6 hours, shifts of at most 6 hours, and the two ways of putting these schedules together. -/
def algS : Schedule Int := Schedule.new shifts.timeline "long" (fun l => decide (6 ≤ l))
def algT : Schedule Int := Schedule.new shifts.timeline "short" (fun l => decide (l ≤ 6) && decide (l ≠ 0))
def algE : Schedule Int := Schedule.new shifts.timeline "either" (fun l => decide (6 ≤ l) || (decide (l ≤ 6) && decide (l ≠ 0)))
def algB : Schedule Int := Schedule.new shifts.timeline "both" (fun l => decide (6 ≤ l) && (decide (l ≤ 6) && decide (l ≠ 0)))

example : shifts.Owns algS ∧ shifts.Owns algT ∧ shifts.Owns algE ∧ shifts.Owns algB ∧ shifts.Either algE algS algT ∧ shifts.Both algB algS algT := by
  have hvd := shifts_reachable.valid
  refine ⟨rfl, rfl, rfl, rfl, ?_, ?_⟩
  · intro k
    rw [hvd.dutyAt_iff, hvd.dutyAt_iff, hvd.dutyAt_iff]
    simp only [dutyMatches, algE, algS, algT, Schedule.new]
    constructor
    · rintro ⟨a, b, l, c, d⟩
      rcases Bool.or_eq_true_iff.1 d with g | g
      · exact .inl ⟨a, b, l, c, g⟩
      · exact .inr ⟨a, b, l, c, g⟩
    · rintro (⟨a, b, l, c, g⟩ | ⟨a, b, l, c, g⟩) <;> exact ⟨a, b, l, c, by simp only [g, Bool.true_or, Bool.or_true]⟩
  · intro k
    rw [hvd.dutyAt_iff, hvd.dutyAt_iff, hvd.dutyAt_iff]
    simp only [dutyMatches, algB, algS, algT, Schedule.new]
    constructor
    · rintro ⟨a, b, l, c, d⟩
      obtain ⟨g1, g2⟩ := Bool.and_eq_true_iff.1 d
      exact ⟨⟨a, b, l, c, g1⟩, ⟨a, b, l, c, g2⟩⟩
    · rintro ⟨⟨a, b, l, c, g⟩, ⟨_, _, l', c', g'⟩⟩
      rw [c] at c'; cases c'
      exact ⟨a, b, l, c, by simp only [g, g', Bool.and_self]⟩

example : (Interval.new shifts (1, 4)).bind (fun v => v.count shifts .on (some algE)) = .ok 2 ∧
    (Interval.new shifts (1, 4)).bind (fun v => v.count shifts .on (some algB)) = .ok 1 ∧
    (Interval.new shifts (1, 4)).bind (fun v => v.count shifts .on (some algS)) = .ok 2 ∧
    (Interval.new shifts (1, 4)).bind (fun v => v.count shifts .on (some algT)) = .ok 1 ∧
    (Interval.new shifts (1, 4)).bind (fun v => (v.last shifts .on (some algE)).map (fun w => w.loc)) = .ok 3 ∧
    (Interval.new shifts (1, 4)).bind (fun v => (v.last shifts .on (some algT)).map (fun w => w.loc)) = .ok 2 ∧
    (Workshift.new shifts 3).bind (fun w => (w.rollforward shifts 0 .on (some algE)).map (fun w => w.loc)) = .ok 3 ∧
    (Workshift.new shifts 3).bind (fun w => (w.rollforward shifts 0 .on (some algT)).map (fun w => w.loc)) = .ok 5 ∧
    (Workshift.new shifts 0).bind (fun w => (w.rollback shifts 0 .on (some algT)).map (fun w => w.loc)) = .error .outOfBounds := by decide +kernel

end TB
