import Verif.Lemmas.Superfluous
import Verif.Examples.Boards
/-! Property C131: superfluous Organizers make no difference. -/
namespace TB
open TB.Ex
variable {L : Type}

theorem Layout.Shorter.kinds {bu : Freq} {l l' : Layout L} (h : Layout.Shorter bu l l') :
    l = l' ∨ (makeOrganizer l = .ok l ∧ (makeOrganizer l' = .ok l' ∨ ∃ x, l' = .label x)) := by
  induction h with
  | refl => exact .inl rfl
  | trans _ _ ih1 ih2 =>
    rcases ih1 with rfl | ⟨h1, _⟩
    · exact ih2
    · rcases ih2 with rfl | ⟨_, h3⟩
      · exact .inr ⟨h1, ‹_›⟩
      · exact .inr ⟨h1, h3⟩
  | element => exact .inr ⟨rfl, .inl rfl⟩
  | first => exact .inr ⟨rfl, .inl rfl⟩
  | @whole l es hl =>
    refine .inr ⟨rfl, ?_⟩
    cases l with
    | organizer => exact .inl rfl
    | organizerRP => exact .inl rfl
    | pattern p => exact absurd rfl (hl p)
    | label x => exact .inr ⟨x, rfl⟩
  | again => exact .inr ⟨rfl, .inl rfl⟩
  | longer => exact .inr ⟨rfl, .inl rfl⟩
  | marks => exact .inr ⟨rfl, .inl rfl⟩
  | shorter => exact .inr ⟨rfl, .inl rfl⟩
  | units => exact .inr ⟨rfl, .inl rfl⟩

/-- **C131.** A layout without its superfluous organizers gives the same timeboard, leaves the RememberingPatterns in the same states, and fails
with the same error if it fails. -/
theorem C131_shorter (a : Args L) (heap : Heap L) {l' : Layout L} (h : a.layout.Shorter a.freq l') (hl : ∀ x, l' ≠ .label x) :
    Timeboard.new { a with layout := l' } heap = Timeboard.new a heap := by
  rcases h.kinds with e | ⟨h1, h2 | ⟨x, h2⟩⟩
  · rw [← e]
  · unfold Timeboard.new
    simp only
    rw [h1, h2]
    simp only
    split
    · rfl
    · cases hf : Frame.new a.freq a.start a.stop with
      | error e => rfl
      | ok f =>
        have hn : 0 < f.n := Frame.new_valid hf
        have hff : f.freq = a.freq := by rw [(Frame.new_ok_iff.1 hf).2]
        have e : Timeline.new f (some l') a.refEnd a.defaultLabel heap = Timeline.new f (some a.layout) a.refEnd a.defaultLabel heap := by
          unfold Timeline.new
          simp only
          rw [Layout.Shorter.run (f := f) (l := a.layout) (l' := l') (by rw [hff]; exact h) (s := { first := 0, last := (f.n : Int) - 1 }) ⟨by simp, by simp only; omega, by simp only; omega⟩]
        simp only
        rw [e]
  · exact absurd h2 (hl x)

/-- **C131.** An Organizer without marks around a whole layout makes no difference, whatever the layout is, unless it is a RememberingPattern or a
single label (which are not accepted as layouts, but as elements of structures). -/
theorem C131_around (a : Args L) (heap : Heap L) (hp : ∀ id, a.layout ≠ .pattern (.rp id)) (hl : ∀ x, a.layout ≠ .label x) (es : List (Layout L)) :
    Timeboard.new { a with layout := .organizer (.marks []) (a.layout :: es) } heap = Timeboard.new a heap := by
  have key : (∀ p, a.layout ≠ .pattern p) → Timeboard.new { a with layout := .organizer (.marks []) (a.layout :: es) } heap = Timeboard.new a heap := fun h =>
    (C131_shorter { a with layout := .organizer (.marks []) (a.layout :: es) } heap (l' := a.layout) (.whole es h) hl).symm
  cases e : a.layout with
  | organizer c e' => rw [← e]; exact key (by rw [e]; intro p h; cases h)
  | organizerRP c e' => rw [← e]; exact key (by rw [e]; intro p h; cases h)
  | label x => exact absurd e (hl x)
  | pattern p =>
    cases p with
    | rp id => exact absurd e (hp id)
    | list xs =>
      have k := C131_shorter { a with layout := .organizer (.marks []) (.pattern (.list xs) :: es) } heap (.first _ es) (fun x h => by cases h)
      refine k.symm.trans ?_
      unfold Timeboard.new
      rw [e]
      rfl

/-- **C131.** Directly within an Organizer by calendar periods, an Organizer by the same periods does nothing but pass its spans to the first element of
its structure. -/
theorem C131_again (a : Args L) (heap : Heap L) {q : Freq} (hq : q.mult = 1) (pre post : List (Layout L)) (l : Layout L) (es : List (Layout L)) :
    Timeboard.new { a with layout := .organizer (.marker ⟨q, []⟩) (pre ++ .organizer (.marker ⟨q, []⟩) (l :: es) :: post) } heap =
    Timeboard.new { a with layout := .organizer (.marker ⟨q, []⟩) (pre ++ l :: post) } heap :=
  (C131_shorter { a with layout := .organizer (.marker ⟨q, []⟩) (pre ++ .organizer (.marker ⟨q, []⟩) (l :: es) :: post) } heap (.again hq pre post l es)
    (fun x h => by cases h)).symm

/-- **C132.** Marks at two levels are the same as all marks at one level. -/
theorem C132_marks (a : Args L) (heap : Heap L) (ts ts' : List Time) (l : Layout L) :
    Timeboard.new { a with layout := .organizer (.marks ts) [.organizer (.marks ts') [l]] } heap =
    Timeboard.new { a with layout := .organizer (.marks (ts ++ ts')) [l] } heap :=
  (C131_shorter { a with layout := .organizer (.marks ts) [.organizer (.marks ts') [l]] } heap (.marks ts ts' l) (fun x h => by cases h)).symm

/-- **C132.** Shorter calendar periods directly inside longer ones made of them are the same as the shorter ones alone, for patterns too. -/
theorem C132_periods (a : Args L) (heap : Heap L) {q g : Freq} (hq : q.mult = 1) (hg : g.mult = 1) (hqg : checkGroupbyFreq g q = true)
    (hc : checkGroupbyFreq a.freq q = true) (l : Layout L) :
    Timeboard.new { a with layout := .organizer (.marker ⟨q, []⟩) [.organizer (.marker ⟨g, []⟩) [l]] } heap =
    Timeboard.new { a with layout := .organizer (.marker ⟨g, []⟩) [l] } heap :=
  (C131_shorter { a with layout := .organizer (.marker ⟨q, []⟩) [.organizer (.marker ⟨g, []⟩) [l]] } heap (.shorter hq hg (checkGroupby_units hqg) hc l)
    (fun x h => by cases h)).symm

/-- Days in weeks in months (a calendar of working weeks), the same with organizers to be left out. -/
def plainWeeks : Layout Int := .organizer (.marker ⟨fM, []⟩) [.organizer (.marker ⟨fW, []⟩) [.pattern (.list [1, 2, 3])], .label 9]
def longWeeks : Layout Int :=
  .organizer (.marks []) [.organizer (.marker ⟨fM, []⟩) [.organizer (.marker ⟨fA, []⟩) [.organizer (.marker ⟨fW, []⟩)
    [.organizer (.marker ⟨fW, []⟩) [.pattern (.list [1, 2, 3]), .label 7]], .label 8], .organizer (.marks []) [.label 9]], .label 6]

example : longWeeks.Shorter fD plainWeeks := by
  refine .trans (.whole _ (fun p h => by cases h)) (.trans (.longer (g := fA) rfl ?_ (by decide) [] _ _ (fun p h => by cases h)) (.trans (.element _ [] _ (.again rfl [] _ _ _)) ?_))
  · exact checkGroupby_units (by decide)
  · exact .element _ [_] [] (.whole _ (fun p h => by cases h))

def superfluousArgs (l : Layout Int) : Args Int where
  freq := fD
  start := date 2017 1 20
  stop := date 2017 3 10
  layout := l
  selector := fun l => decide (l > 1)
  defaultLabel := 0

example : (Timeboard.new (superfluousArgs longWeeks) (fun _ => Cycle.start [])).map (fun r => r.1.timeline.labels) =
      (Timeboard.new (superfluousArgs plainWeeks) (fun _ => Cycle.start [])).map (fun r => r.1.timeline.labels) ∧
    (Timeboard.new (superfluousArgs plainWeeks) (fun _ => Cycle.start [])).map (fun r => r.1.timeline.len) = .ok 23 := by decide +kernel

/-- A pattern is another matter: an organizer by years or without marks around it makes it begin anew, as it is not known any more what is missing from
the first week. -/
example : (Timeboard.new (superfluousArgs (.organizer (.marker ⟨fW, []⟩) [.organizer (.marks []) [.pattern (.list [1, 2, 3])]])) (fun _ => Cycle.start [])).map
      (fun r => r.1.timeline.labels.take 3) = .ok [1, 2, 3] ∧
    (Timeboard.new (superfluousArgs (.organizer (.marker ⟨fW, []⟩) [.pattern (.list [1, 2, 3])])) (fun _ => Cycle.start [])).map
      (fun r => r.1.timeline.labels.take 3) = .ok [2, 3, 1] := by decide +kernel

/-- Periods which begin elsewhere do divide the spans. -/
example : (Timeboard.new (superfluousArgs (.organizer (.marker ⟨fM, []⟩) [.organizer (.marker ⟨fW, []⟩) [.label 1]])) (fun _ => Cycle.start [])).map
      (fun r => r.1.timeline.len) ≠
    (Timeboard.new (superfluousArgs (.organizer (.marker ⟨fM, []⟩) [.label 1])) (fun _ => Cycle.start [])).map (fun r => r.1.timeline.len) := by decide +kernel

example : checkGroupbyFreq fM fA = true ∧ fA.mult = 1 ∧ fM.mult = 1 ∧ checkGroupbyFreq fD fA = true := by decide

/-- Months in years are months; weeks in months are not the same as weeks. -/
example : (Timeboard.new (superfluousArgs (.organizer (.marker ⟨fA, []⟩) [.organizer (.marker ⟨fM, []⟩) [.pattern (.list [1, 2, 3])]])) (fun _ => Cycle.start [])).map
      (fun r => r.1.timeline.labels.take 15) = .ok [2, 3, 1, 2, 3, 1, 2, 3, 1, 2, 3, 1, 1, 2, 3] ∧
    (Timeboard.new (superfluousArgs (.organizer (.marker ⟨fM, []⟩) [.organizer (.marker ⟨fW, []⟩) [.label 1]])) (fun _ => Cycle.start [])).map
      (fun r => r.1.timeline.len) ≠
    (Timeboard.new (superfluousArgs (.organizer (.marker ⟨fW, []⟩) [.label 1])) (fun _ => Cycle.start [])).map (fun r => r.1.timeline.len) := by decide +kernel

/-- With two elements in the inner structure the outer organizer makes a difference, as it begins with the first one each time. -/
example : (Timeboard.new (superfluousArgs (.organizer (.marks [date 2017 2 1]) [.organizer (.marks [date 2017 2 10]) [.label 1, .label 2]])) (fun _ => Cycle.start [])).map
      (fun r => r.1.timeline.labels) = .ok [1, 1, 2] ∧
    (Timeboard.new (superfluousArgs (.organizer (.marks [date 2017 2 1, date 2017 2 10]) [.label 1, .label 2])) (fun _ => Cycle.start [])).map
      (fun r => r.1.timeline.labels) = .ok [1, 2, 1] := by decide +kernel

end TB
