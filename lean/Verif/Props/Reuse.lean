import Verif.Props.Amend
import Verif.Props.Layout
/-!
# C09, C10: RememberingPatterns with amendments and in any number of timeboards
-/
namespace TB
open TB.Ex
variable {L : Type}

/-- What becomes of the labels drawn from the RememberingPattern when a timeboard is made: see `Layout.draws`. -/
def Args.draws (a : Args L) (id : Nat) : List (Option Int) :=
  match makeOrganizer a.layout, Frame.new a.freq a.start a.stop with
  | .ok org, .ok f => Layout.draws f id org { first := 0, last := (f.n : Int) - 1 }
  | _, _ => []

/-- **C09**, with amendments: they do not influence what is drawn; the workshifts they do not refer to have the labels drawn. -/
theorem C09_amended {a : Args L} {heap heap' : Heap L} {tb : Timeboard L} {id : Nat} {xs : List L} {p : Nat}
    (h : Timeboard.new a heap = .ok (tb, heap')) (hp : (heap id).HandedOut xs p) :
    (heap' id).HandedOut xs (p + (a.draws id).length) ∧
    ∀ (n : Nat) (u : Int), (a.draws id)[n]? = some (some u) →
      ∃ k w, 0 ≤ k ∧ k < tb.timeline.len ∧ Workshift.new tb k = .ok w ∧ w.startTime tb = .ok (tb.timeline.frame.unitStart u) ∧
        ((∀ t v, (t, v) ∈ a.amendments → ¬ tb.At t k) → cyclic xs (p + n) = some w.label) := by
  obtain ⟨tb0, h0, _, _, hlen, hall⟩ := C12_amendments_exact h
  obtain ⟨org, hm, hh, hlab⟩ := C09_timeboard (a := a.plain) rfl h0 hp
  have frame : ∀ {b : Args L} {t : Timeboard L} {g : Heap L}, Timeboard.new b heap = .ok (t, g) → Frame.new b.freq b.start b.stop = .ok t.timeline.frame := by
    intro b t g hb
    obtain ⟨org, frame, tl0, tl, h1, h2, h3, h4, h5, rfl⟩ := Timeboard.new_ok_iff.1 hb
    have e1 : tl.frame = frame := by
      rw [(Timeline.amend_frame h5).1, (Timeline.new_wf (Frame.new_valid h3) h4).2.1]
    show Frame.new b.freq b.start b.stop = .ok tl.frame
    rw [e1, h3]
  have f1 := frame h
  have f0 : Frame.new a.freq a.start a.stop = .ok tb0.timeline.frame := frame (b := a.plain) h0
  have ef : tb0.timeline.frame = tb.timeline.frame := by rw [f1] at f0; injection f0 with f0; exact f0.symm
  have ed : a.draws id = Layout.draws tb0.timeline.frame id org { first := 0, last := (tb0.timeline.frame.n : Int) - 1 } := by
    unfold Args.draws
    have hm' : makeOrganizer a.layout = .ok org := hm
    rw [hm', f0]
  rw [ed]
  refine ⟨hh, fun n u hn => ?_⟩
  obtain ⟨d, l, ⟨k, w0, k0, k1, g1, g2, _, rfl⟩, hc⟩ := hlab n u hn
  obtain ⟨w, w0', e1, e2, e3, _, _, _, _, e7⟩ := hall k k0 (by rw [hlen]; exact k1)
  rw [g1] at e2; cases e2
  refine ⟨k, w, k0, by rw [hlen]; exact k1, e1, ?_, ?_⟩
  · rw [e3, g2, ef]
  · intro hna
    rw [e7 hna]
    exact hc

/-- Timeboards made one after another. -/
def makeAll : List (Args L) → Heap L → Except Err (List (Timeboard L) × Heap L)
  | [], heap => .ok ([], heap)
  | a :: as, heap => do
    let (tb, heap) ← Timeboard.new a heap
    let (tbs, heap) ← makeAll as heap
    return (tb :: tbs, heap)

/-- **C10**, any number of timeboards: each one goes on with the label after the last one drawn before, whatever the layouts in which the
RememberingPattern is used. -/
theorem C10_sequence {id : Nat} {xs : List L} : ∀ {as : List (Args L)} {heap heap' : Heap L} {tbs : List (Timeboard L)} {p : Nat},
    makeAll as heap = .ok (tbs, heap') → (heap id).HandedOut xs p →
    tbs.length = as.length ∧ (heap' id).HandedOut xs (p + (as.map (fun a => (a.draws id).length)).sum) ∧
    ∀ (i : Nat) (a : Args L) (tb : Timeboard L), as[i]? = some a → tbs[i]? = some tb → ∀ (n : Nat) (u : Int), (a.draws id)[n]? = some (some u) →
      ∃ k w, 0 ≤ k ∧ k < tb.timeline.len ∧ Workshift.new tb k = .ok w ∧ w.startTime tb = .ok (tb.timeline.frame.unitStart u) ∧
        ((∀ t v, (t, v) ∈ a.amendments → ¬ tb.At t k) →
          cyclic xs (p + ((as.take i).map (fun a => (a.draws id).length)).sum + n) = some w.label) := by
  intro as
  induction as with
  | nil =>
    intro heap heap' tbs p h hp
    cases h
    refine ⟨rfl, by simpa using hp, ?_⟩
    intro i a tb hi
    simp at hi
  | cons a as ih =>
    intro heap heap' tbs p h hp
    unfold makeAll at h
    cases h1 : Timeboard.new a heap with
    | error e => rw [h1] at h; cases h
    | ok r =>
      obtain ⟨tb, heap1⟩ := r
      rw [h1] at h
      simp only [bind, Except.bind] at h
      cases h2 : makeAll as heap1 with
      | error e => rw [h2] at h; cases h
      | ok r =>
        obtain ⟨tbs', heap2⟩ := r
        rw [h2] at h
        cases h
        obtain ⟨g1, g2⟩ := C09_amended h1 hp
        obtain ⟨i1, i2, i3⟩ := ih h2 g1
        refine ⟨by simp [i1], ?_, ?_⟩
        · rw [List.map_cons, List.sum_cons, ← Nat.add_assoc]; exact i2
        · intro i b t hi ht n u hn
          cases i with
          | zero =>
            simp only [List.getElem?_cons_zero, Option.some.injEq] at hi ht
            subst hi; subst ht
            simpa using g2 n u hn
          | succ i =>
            rw [List.getElem?_cons_succ] at hi ht
            have := i3 i b t hi ht n u hn
            rw [List.take_succ_cons, List.map_cons, List.sum_cons, ← Nat.add_assoc p]
            exact this

/-- Four days with the labels of a RememberingPattern, the second day amended. -/
def reuseArgs : Args Int :=
  { rpArgs (.organizer (.marks [date 2017 1 3]) [.pattern (.rp 0)]) (date 2017 1 1) (date 2017 1 4) with amendments := [(date 2017 1 2, 9)] }

/-- Three timeboards: the amended label is lost, and the labels go on from one to the other. -/
example : (makeAll [reuseArgs, rpArgs (.pattern (.list [5])) (date 2017 1 1) (date 2017 1 1), reuseArgs] rpHeap).map (fun r => r.1.map (fun tb => tb.timeline.labels)) =
    .ok [[1, 9, 3, 1], [5], [2, 9, 1, 2]] := by decide +kernel
example : reuseArgs.draws 0 = [some 0, some 1, some 2, some 3] := by decide +kernel

end TB
