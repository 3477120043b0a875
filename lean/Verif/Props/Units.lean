import Verif.Props.Superfluous
/-! Property C133: an Organizer by the base units is a pattern. -/
namespace TB
open TB.Ex
variable {L : Type}

/-- **C133.** Dividing by the base units themselves and giving labels to the parts is the same as the pattern of these labels. -/
theorem C133_pattern (a : Args L) (heap : Heap L) (hc : checkGroupbyFreq a.freq a.freq = true) (xs : List L) :
    Timeboard.new { a with layout := .organizer (.marker ⟨a.freq, []⟩) (xs.map .label) } heap = Timeboard.new { a with layout := .pattern (.list xs) } heap :=
  (C131_shorter { a with layout := .organizer (.marker ⟨a.freq, []⟩) (xs.map .label) } heap (.units hc xs) (fun x h => by cases h)).symm

/-- **C133.** The same with a RememberingPattern, which is left in the same state. -/
theorem C133_remembering (a : Args L) (heap : Heap L) (hc : checkGroupbyFreq a.freq a.freq = true) (id : Nat)
    (hh : (heap id).saved = [] → (heap id).rest = []) :
    Timeboard.new { a with layout := .organizerRP (.marker ⟨a.freq, []⟩) id } heap =
    Timeboard.new { a with layout := .organizer (.marks []) [.pattern (.rp id)] } heap := by
  unfold Timeboard.new
  simp only [makeOrganizer]
  split
  · rfl
  · cases hf : Frame.new a.freq a.start a.stop with
    | error e => rfl
    | ok f =>
      have hn : 0 < f.n := Frame.new_valid hf
      have hff : f.freq = a.freq := by rw [(Frame.new_ok_iff.1 hf).2]
      have e : Timeline.new f (some (.organizerRP (.marker ⟨a.freq, []⟩) id)) a.refEnd a.defaultLabel heap =
          Timeline.new f (some (.organizer (.marks []) [.pattern (.rp id)])) a.refEnd a.defaultLabel heap := by
        unfold Timeline.new
        simp only
        rw [← hff, Layout.run_units_remembering (f := f) (by rw [hff]; exact hc) id (s := { first := 0, last := (f.n : Int) - 1 })
          ⟨by simp, by simp only; omega, by simp only; omega⟩ _ hh]
      simp only
      rw [e]

/-- **C133.** Which frequencies can be divided by themselves: seconds to weeks without a multiplier, and all (but those spelled `min`) with one. -/
theorem C133_which (bu : Freq) : checkGroupbyFreq bu bu = true ↔
    (bu.factor = none ∧ (bu.denom = .D ∨ bu.denom = .H ∨ bu.denom = .T ∨ bu.denom = .S ∨ ∃ s, bu.denom = .W s)) ∨ (bu.mult ≠ 1 ∧ bu.denom.capital = true) := by
  obtain ⟨fac, d, pos⟩ := bu
  cases fac with
  | none =>
    have e : checkGroupbyFreq ⟨none, d, pos⟩ ⟨none, d, pos⟩ = isSubperiod ⟨none, d, pos⟩ ⟨none, d, pos⟩ := by
      unfold checkGroupbyFreq
      cases isSubperiod ⟨none, d, pos⟩ ⟨none, d, pos⟩ with
      | true => rfl
      | false => cases h : d.capital <;> simp [h, Freq.mult]
    rw [e]
    cases d <;> simp [isSubperiod, Freq.mult]
  | some k =>
    have e : isSubperiod ⟨some k, d, pos⟩ ⟨some k, d, pos⟩ = false := rfl
    unfold checkGroupbyFreq
    rw [e]
    by_cases hk : k = 1
    · subst hk; cases h : d.capital <;> simp [h, Freq.mult]
    · cases h : d.capital <;> simp [h, Freq.mult, hk]

/-- **C133.** With any other frequency the timeboard is refused, whatever the elements of the structure are. -/
theorem C133_refused (a : Args L) (heap : Heap L) (hc : checkGroupbyFreq a.freq a.freq = false) (hw : a.worktimeSource ∈ ["duration", "labels"])
    {f : Frame} (hf : Frame.new a.freq a.start a.stop = .ok f) (es : List (Layout L)) :
    Timeboard.new { a with layout := .organizer (.marker ⟨a.freq, []⟩) es } heap = .error .unacceptablePeriod := by
  have hff : f.freq = a.freq := by rw [(Frame.new_ok_iff.1 hf).2]
  unfold Timeboard.new
  simp only [makeOrganizer, hf]
  rw [if_neg (fun h => h hw)]
  have e : Timeline.new f (some (.organizer (.marker ⟨a.freq, []⟩) es)) a.refEnd a.defaultLabel heap = .error .unacceptablePeriod := by
    unfold Timeline.new
    simp only
    unfold Layout.run Frame.cutSpan Frame.partitionWithMarker
    simp only [hff, hc]
    rfl
  rw [e]

def unitsArgs (fr : Freq) (l : Layout Int) : Args Int where
  freq := fr
  start := date 2017 1 20
  stop := date 2017 12 10
  layout := l
  selector := fun l => decide (l > 1)
  defaultLabel := 0

/-- Weeks, and groups of ten days. -/
example : checkGroupbyFreq fW fW = true ∧ checkGroupbyFreq ⟨some 10, .D, by decide⟩ ⟨some 10, .D, by decide⟩ = true ∧ checkGroupbyFreq fM fM = false := by decide

example : (Timeboard.new (unitsArgs fW (.organizer (.marker ⟨fW, []⟩) [.label 1, .label 2, .label 3])) (fun _ => Cycle.start [])).map
      (fun r => r.1.timeline.labels.take 5) = .ok [1, 2, 3, 1, 2] ∧
    (Timeboard.new (unitsArgs fW (.organizerRP (.marker ⟨fW, []⟩) 0)) (fun _ => ⟨[1, 2, 3], [3]⟩)).map
      (fun r => (r.1.timeline.labels.take 5, (r.2 0).rest)) = .ok ([3, 1, 2, 3, 1], [2, 3]) ∧
    (Timeboard.new (unitsArgs fM (.organizer (.marker ⟨fM, []⟩) [.label 1, .label 2])) (fun _ => Cycle.start [])).map
      (fun r => r.1.timeline.labels) = .error .unacceptablePeriod := by decide +kernel

/-- Inside calendar periods a pattern goes on with the place in the period, an organizer by base units begins with the span. -/
example : (Timeboard.new (unitsArgs fD (.organizer (.marker ⟨fM, []⟩) [.organizer (.marker ⟨fD, []⟩) [.label 1, .label 2, .label 3]])) (fun _ => Cycle.start [])).map
      (fun r => r.1.timeline.labels.take 3) = .ok [1, 2, 3] ∧
    (Timeboard.new (unitsArgs fD (.organizer (.marker ⟨fM, []⟩) [.pattern (.list [1, 2, 3])])) (fun _ => Cycle.start [])).map
      (fun r => r.1.timeline.labels.take 3) = .ok [2, 3, 1] := by decide +kernel

end TB
