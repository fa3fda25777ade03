import Verif.Spec.Signal
import Verif.Spec.Filter
import Verif.Spec.Gammatone
import Verif.Spec.Decibel
import Verif.Spec.Nsim
import Verif.Spec.Stats
import Verif.Spec.Lag

/-! # Specification vocabulary: from two signals to the scores of a patch

The steps of the comparison on lists of samples and functions from band and frame to a level, without any of the program's data
structures. -/

namespace Visqol.Spec

/-- Samples `i, ..., j - 1`; positions past the end are silent. -/
def cut (x : List ℝ) (i j : ℕ) : List ℝ := (List.range (j - i)).map fun k => x.getD (i + k) 0

/-- `y` is `x` filtered by a section of the gammatone filter at frequency `f`, with the numerator divided by `g`. -/
def IsSection (sr : ℕ) (f s g : ℝ) (x y : List ℝ) : Prop :=
  IsBiquad (1 / sr / g) (-(1 / sr * zeroAt sr f s) / g) 0 (-2 * poleRadius sr f * Real.cos (radians sr f)) (poleRadius sr f ^ 2) x y

/-- The response of such a section, not divided, to a tone at its own frequency. -/
noncomputable def response (sr : ℕ) (f s : ℝ) : ℂ :=
  transfer (1 / sr) (-(1 / sr * zeroAt sr f s)) 0 (-2 * poleRadius sr f * Real.cos (radians sr f)) (poleRadius sr f ^ 2)
    (Complex.exp (radians sr f * Complex.I))

/-- `e` is the level of `x` in the band at frequency `f`: the root mean square of `x` filtered by the gammatone filter of unit gain,
a cascade of four sections started at rest. -/
def IsLevel (sr : ℕ) (f : ℝ) (x : List ℝ) (e : ℝ) : Prop :=
  let s := Real.sqrt (3 + 2 ^ (1.5 : ℝ))
  let t := Real.sqrt (3 - 2 ^ (1.5 : ℝ))
  ∃ y1 y2 y3 y4, IsSection sr f s ‖response sr f s * response sr f (-s) * response sr f t * response sr f (-t)‖ x y1 ∧
    IsSection sr f (-s) 1 y1 y2 ∧ IsSection sr f t 1 y2 y3 ∧ IsSection sr f (-t) 1 y3 y4 ∧ e = rms y4

/-- `S` is the spectrogram of `x` with `nb` bands from `lo` to `hi`, frames of `W` samples and `hop` samples between frames:
band `b` has the `b`-th of `nb` equally spaced frequencies on the ERB-number scale. -/
def IsSpectrogram (nb sr : ℕ) (lo hi : ℝ) (W hop cols : ℕ) (x : List ℝ) (S : ℕ → ℕ → ℝ) : Prop :=
  ∀ b < nb, ∃ f, 0 < f ∧ erbNumber f = erbNumber lo + b / nb * (erbNumber hi - erbNumber lo) ∧
    ∀ j < cols, IsLevel sr f (cut x (j * hop) (j * hop + W)) (S b j)

/-- `A` and `B` are the spectrograms `R` (`c` frames) and `D` (`d` frames) in decibels, raised to -45 and, in frames both have, to
45 below the loudest band of the two, relative to the lowest value of all. -/
def IsPrepared (nb c d : ℕ) (R D A B : ℕ → ℕ → ℝ) : Prop :=
  ∃ (peak : ℕ → ℝ) (lowest : ℝ) (fr fd : ℕ → ℕ → ℝ),
    (∀ j, j < c → j < d → IsPeak nb nb R D j (peak j)) ∧
    (∀ i j, fr i j = if j < d ∧ j < c then max (peak j - 45) (raised (R i j)) else raised (R i j)) ∧
    (∀ i j, fd i j = if j < d ∧ j < c then max (peak j - 45) (raised (D i j)) else raised (D i j)) ∧
    IsLowest nb c nb d fr fd lowest ∧
    (∀ i < nb, ∀ j < c, A i j = fr i j - lowest) ∧ ∀ i < nb, ∀ j < d, B i j = fd i j - lowest

/-- `A` and `B` are the prepared spectrograms of the signals `x` and `y`, with `c` and `d` frames. -/
def ArePrepared (nb sr : ℕ) (lo hi : ℝ) (W hop c d : ℕ) (x y : List ℝ) (A B : ℕ → ℕ → ℝ) : Prop :=
  W ≤ x.length ∧ c = (x.length - W) / hop + 1 ∧ W ≤ y.length ∧ d = (y.length - W) / hop + 1 ∧
  ∃ R D, IsSpectrogram nb sr lo hi W hop c x R ∧ IsSpectrogram nb sr lo hi W hop d y D ∧ IsPrepared nb c d R D A B

end Visqol.Spec
