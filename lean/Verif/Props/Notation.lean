import Verif.Lemmas.Notation
import Verif.Examples.Boards
import Verif.Model.When
/-! Property C81: notations of a layout which make no difference. -/
namespace TB
open TB.Ex
variable {L : Type}

/-- **C81.** Two layouts which differ only by the order and the repetition of marks and of `at` specifications, and by structures and
patterns written out several times, make the same timeboard and leave RememberingPatterns in the same states; if one cannot be
built then neither can the other. -/
theorem C81_same_layout {a : Args L} {l' : Layout L} (h : a.layout.Same l') (heap : Heap L) (r : Timeboard L × Heap L) :
    Timeboard.new a heap = .ok r ↔ Timeboard.new { a with layout := l' } heap = .ok r := by
  rcases r with ⟨tb, heap'⟩
  have tl : ∀ {o o' : Layout L}, o.Same o' → ∀ f refEnd data r, Timeline.new f (some o) refEnd data heap = .ok r →
      Timeline.new f (some o') refEnd data heap = .ok r := by
    intro o o' ho f refEnd data r hr
    unfold Timeline.new at hr ⊢
    simp only at hr ⊢
    split at hr
    · cases hr
    · rename_i st e
      rw [(ho.run f _ _ st).1 e]
      exact hr
  rw [Timeboard.new_ok_iff, Timeboard.new_ok_iff]
  constructor
  · rintro ⟨o, fr, t0, t, h1, h2, h3, h4, h5, h6⟩
    obtain ⟨o', h1', ho⟩ := h.makeOrganizer.1 o h1
    exact ⟨o', fr, t0, t, h1', h2, h3, tl ho _ _ _ _ h4, h5, h6⟩
  · rintro ⟨o, fr, t0, t, h1, h2, h3, h4, h5, h6⟩
    obtain ⟨o', h1', ho⟩ := h.makeOrganizer.2 o h1
    exact ⟨o', fr, t0, t, h1', h2, h3, tl (.symm ho) _ _ _ _ h4, h5, h6⟩

/-- C81, second part.  A pattern given as layout is the same as an Organizer without marks over this pattern. -/
theorem C81_pattern_layout (a : Args L) (xs : List L) (heap : Heap L) :
    Timeboard.new { a with layout := .pattern (.list xs) } heap =
      Timeboard.new { a with layout := .organizer (.marks []) [.pattern (.list xs)] } heap := rfl

/-- The hypothesis is met: an hourly layout of days by two daily times, each with a pattern, in another notation. -/
def notationA : Layout Int :=
  .organizer (.marker { each := fD, ats := [fromStartOfEach (some { hours := 8 }), fromStartOfEach (some { hours := 18 })] })
    [.label 1, .pattern (.list [2, 3])]

def notationB : Layout Int :=
  .organizer (.marker { each := fD, ats := [fromStartOfEach (some { hours := 18 }), fromStartOfEach (some { hours := 8 }),
      fromStartOfEach (some { hours := 18 })] })
    (timesOver 1 [.label 1, .pattern (.list [2, 3, 2, 3, 2, 3])])

example : notationA.Same notationB :=
  .trans (.trans (.cut (.ats (by intro g; simp only [List.mem_cons, List.not_mem_nil, or_false]; constructor <;> grind)) _) (.element _ [.label 1] [] (.pattern [2, 3] 2))) (.structure _ _ 1)


def notationArgs (l : Layout Int) : Args Int :=
  { freq := fH, start := date 2017 1 1, stop := date 2017 1 2 + 23 * nsHour, layout := l, selector := fun l => l != 0, defaultLabel := 0 }

example : (Timeboard.new (notationArgs notationB) heap0).map (fun r => r.1.timeline.labels) =
    .ok [1, 2, 3, 2, 3, 2, 3, 2, 3, 2, 3, 1, 2, 3, 2, 3, 2, 3, 2, 3, 2, 3, 1] := by decide +kernel

/-- A layout which is not the same in the order of its structure is another timeboard: the theorem does not equate too much. -/
example : (Timeboard.new (notationArgs (.pattern (.list [1, 2]))) heap0).map (fun r => r.1.timeline.labels) ≠
    (Timeboard.new (notationArgs (.pattern (.list [2, 1]))) heap0).map (fun r => r.1.timeline.labels) := by decide +kernel

end TB
