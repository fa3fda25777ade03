import Verif.Spec.Stats
import Mathlib.Analysis.SpecialFunctions.Trigonometric.Basic
import Mathlib.Algebra.BigOperators.Group.Finset.Basic

/-! # Specification vocabulary: the rectified signal used for alignment -/

namespace Visqol.Spec
open Finset

/-- How much of the highest frequency is missing when `len` samples are transformed with `N` points: all of it, unless no padding
takes place or `N` is odd. -/
noncomputable def missing (len N : ℕ) : ℝ := if len = N ∨ N % 2 = 1 then 0 else 1

/-- The component of `y` at the highest frequency of an `N` point transform. -/
noncomputable def highest (y : List ℝ) (N t : ℕ) : ℝ :=
  (∑ a ∈ range y.length, y.getD a 0 * Real.cos (2 * Real.pi * (N / 2 : ℕ) * ((t : ℝ) - a) / N)) / N

/-- The envelope of `s` with transforms of `N` points: the mean plus twice the distance from the mean (less a millionth), up to
the missing part of the highest frequency. -/
noncomputable def envelope (s : List ℝ) (N : ℕ) : List ℝ :=
  (List.range s.length).map fun t =>
    |2 * (s.getD t 0 - mean s - missing s.length N * highest (s.map (· - mean s)) N t) - 1 / 1000000| + mean s

end Visqol.Spec
