import Mathlib.Analysis.SpecialFunctions.Log.Base

/-! # What preparing two spectrograms means

Stated on functions from band and frame to an energy, without the program's matrices. -/

namespace Visqol.Spec

/-- Energy in decibels; silence is treated as the smallest relative step of a 64-bit float. -/
noncomputable def decibels (x : ℝ) : ℝ := 10 * Real.logb 10 (if x = 0 then 1 / 2 ^ 52 else |x|)

/-- Decibels, but at least -45. -/
noncomputable def raised (x : ℝ) : ℝ := max (-45) (decibels x)

/-- `p` is the largest raised value in frame `j` of the two spectrograms `r` (with `m` bands) and `d` (with `n` bands). -/
def IsPeak (m n : ℕ) (r d : ℕ → ℕ → ℝ) (j : ℕ) (p : ℝ) : Prop :=
  ((∃ i < m, p = raised (r i j)) ∨ ∃ i < n, p = raised (d i j)) ∧
    (∀ i < m, raised (r i j) ≤ p) ∧ ∀ i < n, raised (d i j) ≤ p

/-- `f` is the smallest value of `a` (`m` by `c`) and `b` (`n` by `e`) together. -/
def IsLowest (m c n e : ℕ) (a b : ℕ → ℕ → ℝ) (f : ℝ) : Prop :=
  ((∃ i < m, ∃ j < c, f = a i j) ∨ ∃ i < n, ∃ j < e, f = b i j) ∧
    (∀ i < m, ∀ j < c, f ≤ a i j) ∧ ∀ i < n, ∀ j < e, f ≤ b i j

end Visqol.Spec
