import Verif.Model.Num

/-! # Complex numbers as in the `num-complex` crate (external; formulas of version 0.4). -/

namespace Visqol

/-- `num::complex::Complex<f64>`. -/
structure Cpx (F : Type) where
  re : F
  im : F
  deriving DecidableEq, Repr

namespace Cpx
variable {F : Type} [Flt F]

/-- `Complex::new(x, 0.0)`; `Complex64::zero()` is `ofRe 0.0`. -/
def ofRe (x : F) : Cpx F := ⟨x, 0.0⟩
/-- `Complex + Complex` -/
def add (a b : Cpx F) : Cpx F := ⟨a.re + b.re, a.im + b.im⟩
/-- `Complex - Complex` -/
def sub (a b : Cpx F) : Cpx F := ⟨a.re - b.re, a.im - b.im⟩
/-- `Complex * Complex` -/
def mul (a b : Cpx F) : Cpx F := ⟨a.re * b.re - a.im * b.im, a.re * b.im + a.im * b.re⟩
/-- `Complex / Complex` -/
def div (a b : Cpx F) : Cpx F :=
  let n := b.re * b.re + b.im * b.im
  ⟨(a.re * b.re + a.im * b.im) / n, (a.im * b.re - a.re * b.im) / n⟩
/-- `-Complex` -/
def neg (a : Cpx F) : Cpx F := ⟨-a.re, -a.im⟩
/-- `Complex::conj` -/
def conj (a : Cpx F) : Cpx F := ⟨a.re, -a.im⟩
/-- `Complex * f64` and `f64 * Complex` -/
def smul (a : Cpx F) (s : F) : Cpx F := ⟨a.re * s, a.im * s⟩
/-- `Complex / f64` -/
def sdiv (a : Cpx F) (s : F) : Cpx F := ⟨a.re / s, a.im / s⟩
/-- `f64 / Complex` -/
def rdiv (s : F) (b : Cpx F) : Cpx F :=
  let n := b.re * b.re + b.im * b.im
  ⟨s * b.re / n, (-s) * b.im / n⟩
/-- `Complex - f64` -/
def ssub (a : Cpx F) (s : F) : Cpx F := ⟨a.re - s, a.im⟩
/-- `Complex + f64` and `f64 + Complex` -/
def sadd (a : Cpx F) (s : F) : Cpx F := ⟨a.re + s, a.im⟩
/-- `Complex::from_polar` -/
def fromPolar (r θ : F) : Cpx F := ⟨r * Flt.cos θ, r * Flt.sin θ⟩
/-- `Complex::norm` -/
def norm (a : Cpx F) : F := Flt.hypot a.re a.im
/-- `Complex::arg` -/
def arg (a : Cpx F) : F := Flt.atan2 a.im a.re
/-- `Complex::exp` (special treatment of infinities and NaN not modelled) -/
def exp (a : Cpx F) : Cpx F := fromPolar (Flt.exp a.re) a.im
/-- `Complex::cos` -/
def cos (a : Cpx F) : Cpx F := ⟨Flt.cos a.re * Flt.cosh a.im, -Flt.sin a.re * Flt.sinh a.im⟩
/-- `Complex::sin` -/
def sin (a : Cpx F) : Cpx F := ⟨Flt.sin a.re * Flt.cosh a.im, Flt.cos a.re * Flt.sinh a.im⟩
/-- `Complex::powf` -/
def powf (a : Cpx F) (e : F) : Cpx F :=
  if Flt.eq e 0.0 then ⟨1.0, 0.0⟩ else fromPolar (Flt.powf a.norm e) (a.arg * e)

end Cpx

/-- The `rustfft` crate (external): unnormalised forward and inverse transforms of a buffer whose length is
the planned size.  Only length preservation is assumed. -/
class RustFft (F : Type) [Flt F] where
  forward : List (Cpx F) → List (Cpx F)
  inverse : List (Cpx F) → List (Cpx F)
  length_forward : ∀ l, (forward l).length = l.length
  length_inverse : ∀ l, (inverse l).length = l.length

end Visqol
