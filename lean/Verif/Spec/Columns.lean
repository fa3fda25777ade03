/-! # Specification vocabulary: window and columns of a spectrogram, in whole numbers -/

namespace Visqol

/-- Samples in 80 ms, rounded. -/
def windowSamples (sampleRate : Nat) : Nat := (8 * sampleRate + 50) / 100

/-- Windows that fit into `len` samples when each starts a quarter window (rounded down) after the one before. -/
def columnCount (sampleRate len : Nat) : Nat :=
  (len - windowSamples sampleRate) / (windowSamples sampleRate / 4) + 1

/-- A column time counted in unrounded quarter windows never runs more than a window ahead of the column, for the columns of `len`
samples.  Always true if the window is a multiple of four samples. -/
def SmallDrift (sampleRate len : Nat) : Prop :=
  columnCount sampleRate len * (windowSamples sampleRate % 4) ≤ 4 * windowSamples sampleRate

end Visqol
