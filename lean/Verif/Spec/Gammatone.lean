import Mathlib.Analysis.SpecialFunctions.Log.Basic
import Mathlib.Analysis.SpecialFunctions.Pow.Real
import Mathlib.Analysis.SpecialFunctions.Complex.Circle

/-! # Specification vocabulary: gammatone filters and the ERB scale (Glasberg and Moore, Slaney) -/

namespace Visqol.Spec

/-- The equivalent rectangular bandwidth of the ear at frequency `f`, in Hz. -/
noncomputable def erb (f : ℝ) : ℝ := f / 9.26449 + 24.7

/-- The number of equivalent rectangular bandwidths below `f`: the integral of `1 / erb` from 0 to `f`. -/
noncomputable def erbNumber (f : ℝ) : ℝ := 9.26449 * Real.log (1 + f / (9.26449 * 24.7))

/-- Radius of the poles of a gammatone filter at centre frequency `f`. -/
noncomputable def poleRadius (sr : ℕ) (f : ℝ) : ℝ := Real.exp (-(2 * Real.pi * (1.019 * erb f) / sr))

/-- Radians per sample of a tone of frequency `f`. -/
noncomputable def radians (sr : ℕ) (f : ℝ) : ℝ := 2 * Real.pi * f / sr

/-- The zero of a section: `s` is one of `±√(3 ± 2^(3/2))`. -/
noncomputable def zeroAt (sr : ℕ) (f s : ℝ) : ℝ :=
  poleRadius sr f * (Real.cos (radians sr f) + s * Real.sin (radians sr f))

/-- The transfer function of the section with numerator `b0, b1, b2` and denominator `1, a1, a2`. -/
noncomputable def transfer (b0 b1 b2 a1 a2 : ℝ) (z : ℂ) : ℂ := (b0 * z ^ 2 + b1 * z + b2) / (z ^ 2 + a1 * z + a2)

end Visqol.Spec
