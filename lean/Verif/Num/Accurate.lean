import Verif.Num.Libm
import Verif.Num.Dft

/-!
# Floating point: what is assumed about the transforms of `rustfft` where a claim needs them to be accurate

Only used for claims about the detected delay in floating point.  The assumed bound is the textbook one for fast Fourier
transforms: the error, in the Euclidean norm, is a small fraction of the norm of the exact result.  With a unit roundoff of `2^-53`
the fraction is about `2^-50` for any length that occurs; `2^-40` is assumed.  `Verif/Num/Binary64Accurate.lean` shows that
the correctly rounded transform has this law.
-/

namespace Visqol
open Ieee Finset

/-- The entries of the list are finite, with values `x 0, x 1, …`. -/
def CVals {F : Type} [Flt F] [Ieee F] (l : List (Cpx F)) (x : ℕ → ℂ) : Prop :=
  ∀ (n : ℕ) (h : n < l.length), val l[n].re = .fin (x n).re ∧ val l[n].im = .fin (x n).im

class AccurateFft (F : Type) [Flt F] [Ieee F] [RustFft F] : Prop where
  forward_acc : ∀ (l : List (Cpx F)) (x : ℕ → ℂ), CVals l x → l.length ≤ 2 ^ 40 → (∀ n < l.length, ‖x n‖ ≤ 2 ^ 300) →
    ∃ y, CVals (RustFft.forward l) y ∧
      ∑ k ∈ range l.length, ‖y k - ∑ n ∈ range l.length, x n * rootE l.length (-1 * (k * n))‖ ^ 2
        ≤ l.length * (∑ n ∈ range l.length, ‖x n‖ ^ 2) / 2 ^ 80 + 1 / 2 ^ 800
  inverse_acc : ∀ (l : List (Cpx F)) (x : ℕ → ℂ), CVals l x → l.length ≤ 2 ^ 40 → (∀ n < l.length, ‖x n‖ ≤ 2 ^ 300) →
    ∃ y, CVals (RustFft.inverse l) y ∧
      ∑ k ∈ range l.length, ‖y k - ∑ n ∈ range l.length, x n * rootE l.length (1 * (k * n))‖ ^ 2
        ≤ l.length * (∑ n ∈ range l.length, ‖x n‖ ^ 2) / 2 ^ 80 + 1 / 2 ^ 800

end Visqol
