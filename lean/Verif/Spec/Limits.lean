import Verif.Model.Limits
/-! What it means for time to be within the limits of pandas timestamps. -/
namespace TB

/-- The point in time can be a timestamp. -/
def InRange (t : Time) : Prop := minTime ≤ t ∧ t ≤ maxTime

instance (t : Time) : Decidable (InRange t) := inferInstanceAs (Decidable (_ ∧ _))

/-- Every moment of every base unit of the frame can be a timestamp. -/
def Frame.Supported (f : Frame) : Prop :=
  ∀ i : Int, 0 ≤ i → i < f.n → ∀ t : Time, f.unitStart i ≤ t → t ≤ f.unitEnd i → InRange t

/-- The period counted in base units of `freq` which begins with the one of `a` and ends with the one of `b` has a frame, and all of
it is supported. -/
def FrameSupported (freq : Freq) (a b : Time) : Prop := ∃ f, Frame.new freq a b = .ok f ∧ f.Supported

end TB
