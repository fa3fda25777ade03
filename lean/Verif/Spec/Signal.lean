import Mathlib.Data.Real.Basic
import Mathlib.Algebra.BigOperators.Group.Finset.Basic

/-! # Specification vocabulary for signals -/

namespace Visqol

/-- The value of a signal at an integer position, zero outside. -/
def sampleAt (s : List ℝ) (k : ℤ) : ℝ := if 0 ≤ k then s.getD k.toNat 0 else 0

/-- The linear cross-correlation of two signals at an integer lag. -/
noncomputable def xcorr (s t : List ℝ) (lag : ℤ) : ℝ :=
  ∑ j ∈ Finset.range t.length, sampleAt s (j + lag) * sampleAt t j

end Visqol
