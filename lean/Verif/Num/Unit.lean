import Verif.Num.Ieee

/-!
# Floating point: two exact cases

IEEE 754: a product with 1 is the other factor, bit for bit, and `pow(x, 0)` is exactly 1.  Only needed where a signal is compared
with itself (C11): matching its level to itself leaves it as it is.
-/

namespace Visqol
open Ieee

class UnitLaws (F : Type) [Flt F] [Ieee F] : Prop where
  mul_one : ∀ (a b : F) (x : ℝ), val a = .fin x → val b = .fin 1 → a * b = a
  powf_zero : ∀ (a b : F) (x : ℝ), val a = .fin x → val b = .fin 0 → val (Flt.powf a b) = .fin 1

end Visqol
