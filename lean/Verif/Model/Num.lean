/-!
# Numbers, failures and the execution monad

The Rust code computes with `f64`.  The model is written once, over an arbitrary type `F` with the
operations of `Flt F`.  No law is assumed about these operations: a theorem stated for every
`[Flt F]` is true of IEEE binary64 whatever its rounding.  Concrete instances live in `Verif/Num`.
-/

namespace Visqol

/-- The `f64` operations used by the crate.  Comparisons are Boolean (`<`, `<=`, `==` of `PartialOrd`/`PartialEq`).
`sum` is the summation used by `ndarray` (`sum`, `mean`, `sum_axis`, `mean_axis`), whose association order depends on
memory layout and is left unspecified; `Iterator::sum` is modelled separately as a left fold. -/
class Flt (F : Type) extends Add F, Sub F, Mul F, Div F, Neg F, OfScientific F where
  /-- `n as f64` for unsigned integers -/
  ofNat : Nat → F
  /-- `i as f64` for signed integers -/
  ofInt : Int → F
  /-- `a < b` -/
  lt : F → F → Bool
  /-- `a <= b` -/
  le : F → F → Bool
  /-- `a == b` -/
  eq : F → F → Bool
  abs : F → F
  sqrt : F → F
  exp : F → F
  ln : F → F
  log2 : F → F
  log10 : F → F
  sin : F → F
  cos : F → F
  sinh : F → F
  cosh : F → F
  floor : F → F
  ceil : F → F
  /-- `f64::round` (half away from zero) -/
  round : F → F
  powf : F → F → F
  atan2 : F → F → F
  hypot : F → F → F
  /-- `a.mul_add(b, c)` -/
  mulAdd : F → F → F → F
  /-- `x as usize` (truncating, saturating, NaN to 0) -/
  toUsize : F → Nat
  /-- `x as i32` (truncating, saturating, NaN to 0) -/
  toI32 : F → Int
  /-- `x as i16` (truncating, saturating, NaN to 0) -/
  toI16 : F → Int
  /-- `x as f32 as f64` -/
  toF32 : F → F
  /-- `f64::MIN` -/
  minVal : F
  /-- `f64::EPSILON` -/
  epsilon : F
  /-- `std::f64::consts::PI` -/
  pi : F
  /-- summation as done by `ndarray` -/
  sum : List F → F

namespace Flt
variable {F : Type} [Flt F]

/-- `f64::is_nan` (`x != x`). -/
def isNaN (x : F) : Bool := !Flt.eq x x

/-- `f64::max`: if one operand is NaN the other is returned. -/
def max (a b : F) : F := if isNaN a then b else if isNaN b then a else if Flt.lt a b then b else a

/-- `f64::min`: if one operand is NaN the other is returned. -/
def min (a b : F) : F := if isNaN a then b else if isNaN b then a else if Flt.lt b a then b else a

/-- `f64::clamp` (core library): `if self < min { min } ; if self > max { max }`; NaN is returned unchanged. -/
def clamp (x lo hi : F) : F :=
  let y := if Flt.lt x lo then lo else x
  if Flt.lt hi y then hi else y

/-- `f64::partial_cmp`. -/
def partialCmp (a b : F) : Option Ordering :=
  if Flt.lt a b then some .lt else if Flt.lt b a then some .gt else if Flt.eq a b then some .eq else none

/-- `Iterator::sum::<f64>()` of the core library: a left fold. -/
def iterSum (l : List F) : F := l.foldl (· + ·) 0.0

end Flt

/-- `visqol_error.rs:5-36`, the library's error values. -/
inductive VisqolError where
  | differentSampleRates (reference degraded : Nat)
  | tooFewSamples (found minimumRequired : Nat)
  | referenceSpectrogramTooSmall (spectrogramLength minimumRequired : Nat)
  | signalsTooDifferent
  | failedToAlignSignals
  | failedToComputeVad
  | invalidBitsPerSample (bits : Nat)
  deriving DecidableEq, Repr

/-- Kinds of Rust panics that the modelled code can raise. -/
inductive Panic where
  /-- arithmetic overflow or underflow (only with overflow checks) -/
  | overflow
  /-- index out of bounds -/
  | index
  /-- slice range out of bounds or inverted -/
  | slice
  /-- integer division by zero, or a zero step -/
  | divZero
  /-- `Option::expect` / `Result::expect` / `unwrap_or_else(panic!)` -/
  | expect
  /-- `assert!` -/
  | assert
  /-- incompatible array shapes, or a buffer of the wrong length handed to the FFT -/
  | shape
  deriving DecidableEq, Repr

/-- How a call can fail to return a value. -/
inductive Fail where
  /-- a `VisqolError` value is returned -/
  | err (e : VisqolError)
  /-- an error value of another library is returned (`hound::Error`, `csv::Error`) -/
  | external
  /-- the thread panics -/
  | panic (p : Panic)
  deriving DecidableEq, Repr

/-- Results of modelled functions. -/
abbrev M (α : Type) := Except Fail α

/-- Whether integer overflow panics (`checked`, debug builds) or wraps around (`wrapping`, release builds). -/
inductive Profile where
  | checked
  | wrapping
  deriving DecidableEq, Repr

/-- `2^64`, the modulus of `usize` on 64-bit targets. -/
def usizeMod : Nat := 18446744073709551616

/-- `a - b` on `usize`. -/
def usub (p : Profile) (a b : Nat) : M Nat :=
  if b ≤ a then .ok (a - b)
  else match p with
    | .checked => .error (.panic .overflow)
    | .wrapping => .ok (a + usizeMod - b)

/-- `a + b` on `usize`. -/
def uadd (p : Profile) (a b : Nat) : M Nat :=
  if a + b < usizeMod then .ok (a + b)
  else match p with
    | .checked => .error (.panic .overflow)
    | .wrapping => .ok ((a + b) % usizeMod)

/-- `x as i32` for an integer `x`: two's complement truncation. -/
def wrapI32 (z : Int) : Int := Int.bmod z 4294967296

/-- The value of an `i32` operation whose mathematical result is `z`. -/
def i32 (p : Profile) (z : Int) : M Int :=
  if -2147483648 ≤ z ∧ z ≤ 2147483647 then .ok z
  else match p with
    | .checked => .error (.panic .overflow)
    | .wrapping => .ok (wrapI32 z)

/-- `v[i]`. -/
def idx {α : Type} (l : List α) (i : Nat) : M α :=
  match l[i]? with
  | some a => .ok a
  | none => .error (.panic .index)

/-- `v[i]` on an array. -/
def aidx {α : Type} (l : Array α) (i : Nat) : M α :=
  match l[i]? with
  | some a => .ok a
  | none => .error (.panic .index)

/-- `v[i] = a`. -/
def setIdx {α : Type} (l : List α) (i : Nat) (a : α) : M (List α) :=
  if i < l.length then .ok (l.set i a) else .error (.panic .index)

/-- `v[a..b]` (std slices and `ndarray`'s `slice(s![a..b])` alike panic when `a > b` or `b > len`). -/
def sliceM {α : Type} (l : List α) (a b : Nat) : M (List α) :=
  if a ≤ b ∧ b ≤ l.length then .ok ((l.drop a).take (b - a)) else .error (.panic .slice)

/-- `Option::expect`. -/
def expect {α : Type} : Option α → M α
  | some a => .ok a
  | none => .error (.panic .expect)

/-- Run `f` on every element in order, stopping at the first failure (a `for` loop collecting results). -/
def mapE {α β : Type} (f : α → M β) : List α → M (List β)
  | [] => .ok []
  | a :: l => do
    let b ← f a
    let bs ← mapE f l
    .ok (b :: bs)

/-- A `for` loop with state, stopping at the first failure. -/
def foldE {α σ : Type} (f : σ → α → M σ) : σ → List α → M σ
  | s, [] => .ok s
  | s, a :: l => do
    let s' ← f s a
    foldE f s' l

/-- `Vec::resize`. -/
def resize {α : Type} (l : List α) (n : Nat) (v : α) : List α :=
  l.take n ++ List.replicate (n - l.length) v

end Visqol
