import Verif.Model.Cli

/-!
# Executable instance

Lean's `Float` (IEEE binary64) as an instance of `Flt`, used only to execute the model and compare it with the numbers in the
repository's unit tests (see DESIGN.md).  Nothing is proved about this instance and no theorem uses it.
-/

namespace Visqol

private def floatTrunc (x : Float) (lo hi : Int) : Int :=
  if x.isNaN then 0
  else if x ≤ Float.ofInt lo then lo
  else if x ≥ Float.ofInt hi then hi
  else if x < 0 then -(Int.ofNat (-x).toUInt64.toNat) else Int.ofNat x.toUInt64.toNat

instance : Flt Float where
  ofNat n := Float.ofNat n
  ofInt z := Float.ofInt z
  lt a b := decide (a < b)
  le a b := decide (a ≤ b)
  eq a b := a == b
  abs := Float.abs
  sqrt := Float.sqrt
  exp := Float.exp
  ln := Float.log
  log2 := Float.log2
  log10 := Float.log10
  sin := Float.sin
  cos := Float.cos
  sinh := Float.sinh
  cosh := Float.cosh
  floor := Float.floor
  ceil := Float.ceil
  round := Float.round
  powf := Float.pow
  atan2 := Float.atan2
  hypot a b := Float.sqrt (a * a + b * b)
  mulAdd a b c := a * b + c
  toUsize x := (floatTrunc x 0 18446744073709551615).toNat
  toI32 x := floatTrunc x (-2147483648) 2147483647
  toI16 x := floatTrunc x (-32768) 32767
  toF32 x := x.toFloat32.toFloat
  minVal := -1.7976931348623157e308
  epsilon := 2.220446049250313e-16
  pi := 3.14159265358979323846264338327950288
  sum l := l.foldl (· + ·) 0.0

end Visqol
