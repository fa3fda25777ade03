import Verif.Spec.Columns
import Verif.Model.Num

/-! # The errors a comparison returns, by the lengths of its signals -/

namespace Visqol

/-- The error for a reference of `refLen` samples and an aligned degraded signal of `degLen` samples: a signal shorter than a window is
refused with its length, then, in fullband mode, a reference with fewer than 30 columns. -/
def rejection (fullband : Bool) (sampleRate refLen degLen : Nat) : Option VisqolError :=
  if refLen < windowSamples sampleRate then some (.tooFewSamples refLen (windowSamples sampleRate))
  else if degLen < windowSamples sampleRate then some (.tooFewSamples degLen (windowSamples sampleRate))
  else if fullband && columnCount sampleRate refLen < 30 then
    some (.referenceSpectrogramTooSmall (columnCount sampleRate refLen) 10)
  else none

end Visqol
