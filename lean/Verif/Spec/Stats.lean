import Mathlib.Analysis.Real.Sqrt

/-! # Specification vocabulary: means and deviations -/

namespace Visqol

/-- The arithmetic mean. -/
noncomputable def mean (l : List ℝ) : ℝ := l.sum / l.length

/-- The sample standard deviation (divisor `n - 1`). -/
noncomputable def sampleStd (l : List ℝ) : ℝ :=
  Real.sqrt ((l.map fun x => (x - mean l) ^ 2).sum / (l.length - 1))

end Visqol
