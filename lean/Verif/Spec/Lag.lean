import Verif.Spec.Signal
import Verif.Spec.Envelope

/-! # Specification vocabulary: alignment of two signals -/

namespace Visqol.Spec

/-- `lag` is the lag with the largest absolute correlation of `s` and `t`.  If there are several, the last one decides on the
sign of the correlation, and `lag` is the smallest of those with that sign. -/
structure IsBestLag (s t : List ℝ) (lag : ℤ) : Prop where
  inside : |lag| < max s.length t.length
  best : ∀ k : ℤ, |k| < max s.length t.length → |xcorr s t k| ≤ |xcorr s t lag|
  first : ∀ k : ℤ, |k| < max s.length t.length → xcorr s t k = xcorr s t lag → lag ≤ k
  sign : ∃ last : ℤ, |last| < max s.length t.length ∧ xcorr s t last = xcorr s t lag ∧
    ∀ k : ℤ, last < k → k < max s.length t.length → |xcorr s t k| < |xcorr s t lag|

/-- `y` later by `z` samples: zeros in front, or leading samples dropped. -/
def shift (z : ℤ) (y : List ℝ) : List ℝ := List.replicate z.toNat 0 ++ y.drop (-z).toNat

/-- The shift that is applied when the best lag is `lag`: none if that is more than half of the reference `x`. -/
def accepted (x : List ℝ) (lag : ℤ) : ℤ := if x.length / 2 < lag.natAbs then 0 else lag

/-- The number of samples by which `y` is delayed to match `x`: the best lag of the envelopes, if that is at most half of `x`.
`pad n` is the transform size for `n` samples. -/
def IsDelay (pad : ℕ → ℕ) (x y : List ℝ) (z : ℤ) : Prop :=
  ∃ lag, IsBestLag (envelope x (max (pad x.length) 32)) (envelope y (max (pad y.length) 32)) lag ∧ z = accepted x lag

/-- The absolute correlation of `s` and `t` at `lag` is the largest up to `tol`. -/
structure IsNearBestLag (s t : List ℝ) (tol : ℝ) (lag : ℤ) : Prop where
  inside : |lag| < max s.length t.length
  best : ∀ k : ℤ, |k| < max s.length t.length → |xcorr s t k| ≤ |xcorr s t lag| + tol

/-- Like `IsDelay`, but with a lag that is the best only up to `tol`. -/
def IsNearDelay (pad : ℕ → ℕ) (x y : List ℝ) (tol : ℝ) (z : ℤ) : Prop :=
  ∃ lag, IsNearBestLag (envelope x (max (pad x.length) 32)) (envelope y (max (pad y.length) 32)) tol lag ∧ z = accepted x lag

/-- The largest absolute correlation of `s` and `t` exceeds all others by more than `tol`. -/
def ClearPeak (s t : List ℝ) (tol : ℝ) (lag : ℤ) : Prop :=
  |lag| < max s.length t.length ∧ ∀ k : ℤ, |k| < max s.length t.length → k ≠ lag → |xcorr s t k| + tol < |xcorr s t lag|

/-- The Euclidean norm. -/
noncomputable def norm2 (x : List ℝ) : ℝ := Real.sqrt (x.map (· ^ 2)).sum

/-- `x₀ - x₁ + x₂ - …` -/
noncomputable def alternating : List ℝ → ℝ
  | [] => 0
  | x :: l => x - alternating l

/-- No constant part and nothing at half the sample rate. -/
structure Balanced (x : List ℝ) : Prop where
  sum : x.sum = 0
  alt : alternating x = 0

end Visqol.Spec
