import Verif.Spec.Stats
import Mathlib.Algebra.BigOperators.Group.Finset.Basic

/-! # The neurogram similarity index, as in the literature

Stated on functions from band and frame to a level, without the program's matrices. -/

namespace Visqol.Spec
open Finset

/-- The weights of the 3 by 3 window. -/
noncomputable def weight (u v : ℕ) : ℝ :=
  if u = 1 ∧ v = 1 then 0.619485845753726 else if u = 1 ∨ v = 1 then 0.0838251475442633 else 0.0113033910173052

/-- The neighbour of cell `(i, j)` in direction `(u - 1, v - 1)`; outside the `n` by `c` patch the nearest cell inside. -/
def around (n c : ℕ) (f : ℕ → ℕ → ℝ) (i j u v : ℕ) : ℝ := f (min (i + u - 1) (n - 1)) (min (j + v - 1) (c - 1))

/-- The windowed average around a cell. -/
noncomputable def localMean (n c : ℕ) (f : ℕ → ℕ → ℝ) (i j : ℕ) : ℝ :=
  ∑ u ∈ range 3, ∑ v ∈ range 3, weight u v * around n c f i j u v

/-- The windowed covariance around a cell. -/
noncomputable def localCov (n c : ℕ) (f g : ℕ → ℕ → ℝ) (i j : ℕ) : ℝ :=
  ∑ u ∈ range 3, ∑ v ∈ range 3, weight u v *
    ((around n c f i j u v - localMean n c f i j) * (around n c g i j u v - localMean n c g i j))

/-- Similarity of intensity: compares the averages, with the constant `(0.01 L)²` for a range `L = 1`. -/
noncomputable def intensity (n c : ℕ) (f g : ℕ → ℕ → ℝ) (i j : ℕ) : ℝ :=
  (2 * localMean n c f i j * localMean n c g i j + 0.01 ^ 2) /
    (localMean n c f i j ^ 2 + localMean n c g i j ^ 2 + 0.01 ^ 2)

/-- Similarity of structure: the correlation, with the constant `(0.03 L)² / 2`. -/
noncomputable def structural (n c : ℕ) (f g : ℕ → ℕ → ℝ) (i j : ℕ) : ℝ :=
  (localCov n c f g i j + 0.03 ^ 2 / 2) /
    (Real.sqrt (localCov n c f f i j) * Real.sqrt (localCov n c g g i j) + 0.03 ^ 2 / 2)

/-- The similarities of band `i`, frame by frame. -/
noncomputable def bandSimilarities (n c : ℕ) (f g : ℕ → ℕ → ℝ) (i : ℕ) : List ℝ :=
  (List.range c).map fun j => intensity n c f g i j * structural n c f g i j

end Visqol.Spec
