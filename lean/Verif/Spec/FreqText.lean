import Verif.Model.FreqText
import Verif.Spec.Text
/-! What a frequency string says, by the reader of `Spec/Text.lean`: digits and one of the names. -/
namespace TB

/-- The string is a way to write the frequency; leading zeros are possible. -/
def Freq.WrittenAs (f : Freq) (s : Text) : Prop := readFreq s = some (f.factor, f.denom)

/-- pandas accepts the strings which are a way to write a frequency. -/
def AcceptsWritten (valid : Text → Bool) : Prop := ∀ (f : Freq) (s : Text), f.WrittenAs s → valid s = true

end TB
