import Verif.Model.When
/-! The marks of a marker, period by period. -/
namespace TB

/-- The points which a `how` function makes for one calendar period: for `pd.PeriodIndex([period])`. -/
def howAt (g : Frame → Freq → Except Err (List Time)) (each bu : Freq) (o : Int) : List Time :=
  match g ⟨each, o, 1⟩ bu with
  | .ok ts => ts
  | .error _ => []

/-- The marker marks the point in time. -/
def Marker.Mark (bu : Freq) (m : Marker) (t : Time) : Prop := ∃ o, ∃ g ∈ m.ats, t ∈ howAt g m.each bu o

/-- A marker with `at`, whose frequency is not multiplied and whose points are made for each calendar period on its own; they
are within the period and are starts of base units. -/
structure Marker.Regular (bu : Freq) (m : Marker) : Prop where
  mult : m.each.mult = 1
  ne : m.ats ≠ []
  each : ∀ g ∈ m.ats, ∀ pi : Frame, pi.freq = m.each → 0 < pi.n → ∃ ts, g pi bu = .ok ts ∧
    ∀ t, t ∈ ts ↔ ∃ o, pi.o0 ≤ o ∧ o < pi.o0 + pi.n ∧ t ∈ howAt g m.each bu o
  within : ∀ g ∈ m.ats, ∀ o, ∀ t ∈ howAt g m.each bu o, m.each.base.startOf o ≤ t ∧ t < m.each.base.startOf (o + 1) ∧
    t = snap bu t

/-- The point is marked in one of the consecutive periods of the (possibly multiplied) frequency, the first of which starts with
the calendar period `o0`. -/
def Marker.MarkFrom (bu : Freq) (m : Marker) (o0 : Int) (t : Time) : Prop :=
  ∃ i : Nat, ∃ g ∈ m.ats, t ∈ howAt g m.each bu (o0 + (m.each.mult : Int) * i)

/-- The same as regular, but the frequency may be multiplied: points are made for each (multiplied) period on its own, are within
the period and are starts of base units. -/
structure Marker.Local (bu : Freq) (m : Marker) : Prop where
  unit : bu.mult = 1
  ne : m.ats ≠ []
  each : ∀ g ∈ m.ats, ∀ pi : Frame, pi.freq = m.each → 0 < pi.n → ∃ ts, g pi bu = .ok ts ∧
    ∀ t, t ∈ ts ↔ ∃ i : Nat, i < pi.n ∧ t ∈ howAt g m.each bu (pi.o0 + (m.each.mult : Int) * i)
  within : ∀ g ∈ m.ats, ∀ o, ∀ t ∈ howAt g m.each bu o, m.each.base.startOf o ≤ t ∧ t < m.each.base.startOf (o + m.each.mult) ∧
    t = snap bu t

end TB
