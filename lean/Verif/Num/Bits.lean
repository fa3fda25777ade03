import Verif.Num.Ieee

/-!
# Floating point: facts about bit patterns

IEEE 754 with round to nearest: rounding is symmetric, doubling is exact, a non-zero number has one bit pattern, zero divided by a
positive number is the same zero, and the sum of two numbers, computed as `0 + a + b` (`ndarray`'s `sum_axis` on rows of two), is their
rounded sum whatever their order.  A number and its opposite have the same square.  Only needed for the channels of a stereo file (C83)
and for inverted copies (C96).
-/

namespace Visqol
open Ieee

class BitLaws (F : Type) [Flt F] [Ieee F] : Prop where
  rnd_neg : ∀ x : ℝ, Ieee.rnd F (-x) = (Ieee.rnd F x).neg
  rnd_double : ∀ (a : F) (x : ℝ), val a = .fin x → |x| ≤ 2 ^ 1000 → Ieee.rnd F (2 * x) = .fin (2 * x)
  ext : ∀ (a b : F) (x : ℝ), val a = .fin x → val b = .fin x → x ≠ 0 → a = b
  zero_div : ∀ (b : F) (y : ℝ), val b = .fin y → 0 < y → (Flt.ofInt 0 : F) / b = Flt.ofInt 0
  sum_pair : ∀ (a b : F) (x y : ℝ), val a = .fin x → val b = .fin y → val (Flt.sum [a, b]) = Ieee.rnd F (x + y)
  sum_one : ∀ (a : F) (x : ℝ), val a = .fin x → x ≠ 0 → Flt.sum [a] = a
  sum_zero : Flt.sum [(Flt.ofInt 0 : F)] = Flt.ofInt 0
  sum_zeros : Flt.sum [(Flt.ofInt 0 : F), Flt.ofInt 0] = Flt.ofInt 0
  sum_swap : ∀ (a b : F) (x y : ℝ), val a = .fin x → val b = .fin y → Flt.sum [a, b] = Flt.sum [b, a]
  square : ∀ (a b : F) (x : ℝ), val a = .fin x → val b = .fin (-x) → b * b = a * a

end Visqol
