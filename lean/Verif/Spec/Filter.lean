import Verif.Spec.Signal
import Mathlib.Analysis.Real.Sqrt

/-! # Specification vocabulary: second-order sections -/

namespace Visqol

/-- `y` is the output of the section with numerator `b0, b1, b2` and denominator `1, a1, a2` for input `x`, started at rest. -/
def IsBiquad (b0 b1 b2 a1 a2 : ℝ) (x y : List ℝ) : Prop :=
  y.length = x.length ∧ ∀ n : ℤ, 0 ≤ n → n < x.length →
    sampleAt y n = b0 * sampleAt x n + b1 * sampleAt x (n - 1) + b2 * sampleAt x (n - 2)
      - a1 * sampleAt y (n - 1) - a2 * sampleAt y (n - 2)

/-- The root mean square. -/
noncomputable def rms (l : List ℝ) : ℝ := Real.sqrt ((l.map fun x => x ^ 2).sum / l.length)

end Visqol
