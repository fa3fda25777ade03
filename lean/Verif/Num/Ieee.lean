import Verif.Num.Real
import Mathlib.Tactic.NormNum
import Mathlib.Tactic.Linarith

/-!
# Floating point: what is assumed about binary64 where a claim needs more than "any arithmetic"

Theorems about special values (NaN, infinities, silent signals) are stated for every `F` with the laws of `Ieee F`.  Every number
has a value: NaN, an infinity or a real number (both zeros have the value 0).  The basic operations deliver the rounded exact
result; the rounding is any function with the laws below, so all rounding modes are covered.  Library functions (`log10`, `powf`)
are only assumed to be roughly right.  `Verif/Num/Binary64.lean` shows that correctly rounded binary64 has all these laws.
-/

namespace Visqol
open Classical

/-- The value of a floating point number. -/
inductive Val where
  | nan
  /-- infinity; `true` for the negative one -/
  | inf (neg : Bool)
  | fin (x : ℝ)

namespace Val

/-- `-a` -/
def neg : Val → Val
  | nan => nan
  | inf s => inf (!s)
  | fin x => fin (-x)

/-- `a + b`, with rounding `r` of the exact sum. -/
noncomputable def add (r : ℝ → Val) : Val → Val → Val
  | nan, _ => nan
  | _, nan => nan
  | inf s, inf t => if s = t then inf s else nan
  | inf s, fin _ => inf s
  | fin _, inf t => inf t
  | fin x, fin y => r (x + y)

/-- `a * b` -/
noncomputable def mul (r : ℝ → Val) : Val → Val → Val
  | nan, _ => nan
  | _, nan => nan
  | inf s, inf t => inf (s != t)
  | inf s, fin x => if x = 0 then nan else inf (s != decide (x < 0))
  | fin x, inf s => if x = 0 then nan else inf (s != decide (x < 0))
  | fin x, fin y => r (x * y)

/-- `a < b` -/
noncomputable def lt : Val → Val → Bool
  | nan, _ => false
  | _, nan => false
  | inf s, inf t => s && !t
  | inf s, fin _ => s
  | fin _, inf t => !t
  | fin x, fin y => decide (x < y)

/-- `a == b` -/
noncomputable def eq : Val → Val → Bool
  | nan, _ => false
  | _, nan => false
  | inf s, inf t => s == t
  | inf _, fin _ => false
  | fin _, inf _ => false
  | fin x, fin y => decide (x = y)

/-- `|a|` -/
noncomputable def abs : Val → Val
  | nan => nan
  | inf _ => inf false
  | fin x => fin |x|

/-- `a.sqrt()` -/
noncomputable def sqrt (r : ℝ → Val) : Val → Val
  | nan => nan
  | inf s => if s then nan else inf false
  | fin x => if x < 0 then nan else r (Real.sqrt x)

/-- `a as usize` -/
noncomputable def toUsize : Val → Nat
  | nan => 0
  | inf s => if s then 0 else 18446744073709551615
  | fin x => (realToInt 0 18446744073709551615 x).toNat

end Val

/-- The laws of binary64 arithmetic, for any rounding mode. -/
class Ieee (F : Type) [Flt F] where
  val : F → Val
  /-- rounding of an exact result (overflow gives an infinity or a finite number, depending on the mode) -/
  rnd : ℝ → Val
  /-- numbers with at most 53 binary digits in the middle of the exponent range are exact -/
  rnd_dyadic : ∀ k e : ℤ, |k| ≤ 2 ^ 53 → -1000 ≤ e → e ≤ 900 → rnd (k * 2 ^ e) = .fin (k * 2 ^ e)
  /-- the error is at most one unit in the last place -/
  rnd_acc : ∀ x : ℝ, |x| ≤ 2 ^ 1000 → ∃ y, rnd x = .fin y ∧ |y - x| ≤ |x| / 2 ^ 52 + 1 / 2 ^ 1000
  /-- rounding does not cross a floating point number -/
  rnd_ge : ∀ (a : F) (x y : ℝ), val a = .fin x → x ≤ y → rnd y = .inf false ∨ ∃ z, rnd y = .fin z ∧ x ≤ z
  rnd_le : ∀ (a : F) (x y : ℝ), val a = .fin x → y ≤ x → rnd y = .inf true ∨ ∃ z, rnd y = .fin z ∧ z ≤ x
  /-- rounding is monotone -/
  rnd_mono : ∀ (x y u v : ℝ), x ≤ y → rnd x = .fin u → rnd y = .fin v → u ≤ v
  /-- the exponent range -/
  range : ∀ (a : F) (x : ℝ), val a = .fin x → x = 0 ∨ (1 / 2 ^ 1074 ≤ |x| ∧ |x| ≤ 2 ^ 1024)
  val_ofNat : ∀ n : Nat, val (Flt.ofNat n) = rnd n
  val_ofInt : ∀ n : Int, val (Flt.ofInt n) = rnd n
  /-- decimal literals are the rounded decimal fractions -/
  val_sci : ∀ (m : Nat) (s : Bool) (e : Nat),
    val (Flt.toOfScientific.ofScientific m s e) = rnd (if s then (m : ℝ) / 10 ^ e else (m : ℝ) * 10 ^ e)
  val_add : ∀ a b : F, val (a + b) = (val a).add rnd (val b)
  val_sub : ∀ a b : F, val (a - b) = (val a).add rnd (val b).neg
  val_mul : ∀ a b : F, val (a * b) = (val a).mul rnd (val b)
  val_neg : ∀ a : F, val (-a) = (val a).neg
  div_nan : ∀ a b : F, val a = .nan ∨ val b = .nan → val (a / b) = .nan
  div_fin : ∀ (a b : F) (x y : ℝ), val a = .fin x → val b = .fin y → y ≠ 0 → val (a / b) = rnd (x / y)
  zero_div_zero : ∀ a b : F, val a = .fin 0 → val b = .fin 0 → val (a / b) = .nan
  /-- the sign depends on the sign of the zero -/
  div_zero : ∀ (a b : F) (x : ℝ), val a = .fin x → x ≠ 0 → val b = .fin 0 → ∃ s, val (a / b) = .inf s
  inf_div : ∀ (a b : F) (s : Bool) (y : ℝ), val a = .inf s → val b = .fin y → 0 < y → val (a / b) = .inf s
  div_inf : ∀ (a b : F) (x : ℝ) (s : Bool), val a = .fin x → val b = .inf s → val (a / b) = .fin 0
  lt_val : ∀ a b : F, Flt.lt a b = (val a).lt (val b)
  eq_val : ∀ a b : F, Flt.eq a b = (val a).eq (val b)
  val_abs : ∀ a : F, val (Flt.abs a) = (val a).abs
  val_sqrt : ∀ a : F, val (Flt.sqrt a) = (val a).sqrt rnd
  val_round : ∀ (a : F) (x : ℝ), val a = .fin x → val (Flt.round a) = rnd (realRound x)
  toUsize_val : ∀ a : F, Flt.toUsize a = (val a).toUsize
  log10_nan : ∀ a : F, val a = .nan → val (Flt.log10 a) = .nan
  log10_zero : ∀ a : F, val a = .fin 0 → val (Flt.log10 a) = .inf true
  log10_inf : ∀ a : F, val a = .inf false → val (Flt.log10 a) = .inf false
  log10_neg : ∀ a : F, (val a = .inf true ∨ ∃ x < 0, val a = .fin x) → val (Flt.log10 a) = .nan
  log10_pos : ∀ (a : F) (x : ℝ), val a = .fin x → 0 < x → ∃ y, val (Flt.log10 a) = .fin y ∧ |y - Real.logb 10 x| ≤ 1
  powf_nan : ∀ (a b : F) (x : ℝ), val a = .fin x → 1 < x → val b = .nan → val (Flt.powf a b) = .nan
  powf_inf : ∀ (a b : F) (x : ℝ) (s : Bool), val a = .fin x → 1 < x → val b = .inf s →
    val (Flt.powf a b) = if s then .fin 0 else .inf false
  powf_pos : ∀ (a b : F) (x y : ℝ), val a = .fin x → val b = .fin y → 0 < x → 1 / 2 ^ 900 ≤ x ^ y → x ^ y ≤ 2 ^ 900 →
    ∃ z, val (Flt.powf a b) = .fin z ∧ x ^ y / 2 ≤ z ∧ z ≤ 2 * x ^ y
  hypot_nan : ∀ (a b : F) (y : ℝ), val a = .nan → val b = .fin y → val (Flt.hypot a b) = .nan
  val_minVal : val Flt.minVal = .fin (-((2 : ℝ) ^ 1024 - 2 ^ 971))
  val_epsilon : val Flt.epsilon = .fin (1 / 2 ^ 52)
  sum_nan : ∀ l : List F, (∃ a ∈ l, val a = .nan) → val (Flt.sum l) = .nan
  /-- sums of natural numbers are exact as long as they have at most 53 binary digits, whatever the order of summation -/
  sum_nat : ∀ (l : List F) (n : List Nat), l.map val = n.map (fun k : ℕ => Val.fin (k : ℝ)) → n.sum ≤ 2 ^ 53 →
    val (Flt.sum l) = .fin (n.sum : ℝ)
  /-- sums of small numbers do not overflow, whatever the order of summation -/
  sum_small : ∀ l : List F, (∀ a ∈ l, ∃ x, val a = .fin x ∧ |x| ≤ 2) → l.length ≤ 2 ^ 50 → ∃ y, val (Flt.sum l) = .fin y

/-- What is assumed about the transforms of `rustfft` on binary64: if the real part of the first entry is NaN, the real part of
every output is NaN (the first entry contributes to every output with weight 1). -/
class NanFft (F : Type) [Flt F] [Ieee F] [RustFft F] : Prop where
  forward_nan : ∀ (a : Cpx F) (l : List (Cpx F)), Ieee.val a.re = .nan → ∀ c ∈ RustFft.forward (a :: l), Ieee.val c.re = .nan
  inverse_nan : ∀ (a : Cpx F) (l : List (Cpx F)), Ieee.val a.re = .nan → ∀ c ∈ RustFft.inverse (a :: l), Ieee.val c.re = .nan

end Visqol
