import Verif.Model.Cli
import Mathlib.Analysis.Real.Sqrt
import Mathlib.Analysis.SpecialFunctions.Log.Base
import Mathlib.Analysis.SpecialFunctions.Pow.Real
import Mathlib.Analysis.SpecialFunctions.Trigonometric.Deriv
import Mathlib.Analysis.SpecialFunctions.Complex.Arg
import Mathlib.Algebra.Order.Floor.Ring

/-! # Exact arithmetic: the operations of the model on the real numbers

`0/0` and square roots and logarithms of negative numbers are `0` or otherwise defined here (Mathlib's conventions) where
IEEE gives NaN; theorems whose claim would be affected carry the hypothesis that excludes such inputs, or say so. -/

namespace Visqol
open Classical

/-- `f64::round`: half away from zero. -/
noncomputable def realRound (x : ℝ) : ℝ := if 0 ≤ x then (⌊x + 1 / 2⌋ : ℝ) else (⌈x - 1 / 2⌉ : ℝ)

/-- Truncation towards zero. -/
noncomputable def realTrunc (x : ℝ) : ℤ := if 0 ≤ x then ⌊x⌋ else ⌈x⌉

/-- Saturating conversion to an integer range. -/
noncomputable def realToInt (lo hi : ℤ) (x : ℝ) : ℤ := max lo (min hi (realTrunc x))

noncomputable instance instFltReal : Flt ℝ where
  ofNat n := (n : ℝ)
  ofInt n := (n : ℝ)
  lt a b := decide (a < b)
  le a b := decide (a ≤ b)
  eq a b := decide (a = b)
  abs x := |x|
  sqrt := Real.sqrt
  exp := Real.exp
  ln := Real.log
  log2 := Real.logb 2
  log10 := Real.logb 10
  sin := Real.sin
  cos := Real.cos
  sinh := Real.sinh
  cosh := Real.cosh
  floor x := (⌊x⌋ : ℝ)
  ceil x := (⌈x⌉ : ℝ)
  round := realRound
  powf := fun a b => a ^ b
  atan2 y x := Complex.arg ⟨x, y⟩
  hypot x y := Real.sqrt (x ^ 2 + y ^ 2)
  mulAdd a b c := a * b + c
  toUsize x := (realToInt 0 18446744073709551615 x).toNat
  toI32 := realToInt (-2147483648) 2147483647
  toI16 := realToInt (-32768) 32767
  toF32 := id
  minVal := -((2 : ℝ) ^ 1024 - 2 ^ 971)
  epsilon := 1 / 2 ^ 52
  pi := Real.pi
  sum := List.sum

section simp_lemmas
variable (a b c : ℝ)
@[simp] theorem real_ofNat (n : Nat) : (Flt.ofNat n : ℝ) = n := rfl
@[simp] theorem real_ofInt (n : Int) : (Flt.ofInt n : ℝ) = n := rfl
@[simp] theorem real_lt : Flt.lt a b = decide (a < b) := rfl
@[simp] theorem real_le : Flt.le a b = decide (a ≤ b) := rfl
@[simp] theorem real_eq : Flt.eq a b = decide (a = b) := rfl
@[simp] theorem real_abs : Flt.abs a = |a| := rfl
@[simp] theorem real_sqrt : Flt.sqrt a = Real.sqrt a := rfl
@[simp] theorem real_exp : Flt.exp a = Real.exp a := rfl
@[simp] theorem real_ln : Flt.ln a = Real.log a := rfl
@[simp] theorem real_log2 : Flt.log2 a = Real.logb 2 a := rfl
@[simp] theorem real_log10 : Flt.log10 a = Real.logb 10 a := rfl
@[simp] theorem real_sin : Flt.sin a = Real.sin a := rfl
@[simp] theorem real_cos : Flt.cos a = Real.cos a := rfl
@[simp] theorem real_sinh : Flt.sinh a = Real.sinh a := rfl
@[simp] theorem real_cosh : Flt.cosh a = Real.cosh a := rfl
@[simp] theorem real_floor : Flt.floor a = (⌊a⌋ : ℝ) := rfl
@[simp] theorem real_ceil : Flt.ceil a = (⌈a⌉ : ℝ) := rfl
@[simp] theorem real_round : Flt.round a = realRound a := rfl
@[simp] theorem real_powf : Flt.powf a b = a ^ b := rfl
@[simp] theorem real_hypot : Flt.hypot a b = Real.sqrt (a ^ 2 + b ^ 2) := rfl
@[simp] theorem real_mulAdd : Flt.mulAdd a b c = a * b + c := rfl
@[simp] theorem real_toF32 : Flt.toF32 a = a := rfl
@[simp] theorem real_pi : (Flt.pi : ℝ) = Real.pi := rfl
@[simp] theorem real_epsilon : (Flt.epsilon : ℝ) = 1 / 2 ^ 52 := rfl
@[simp] theorem real_minVal : (Flt.minVal : ℝ) = -((2 : ℝ) ^ 1024 - 2 ^ 971) := rfl
@[simp] theorem real_sum (l : List ℝ) : Flt.sum l = l.sum := rfl
@[simp] theorem real_isNaN : Flt.isNaN a = false := by simp [Flt.isNaN]
@[simp] theorem real_max : Flt.max a b = max a b := by
  simp only [Flt.max, real_isNaN, real_lt, decide_eq_true_eq, Bool.false_eq_true, if_false]
  split
  · exact (max_eq_right (le_of_lt ‹_›)).symm
  · exact (max_eq_left (not_lt.mp ‹_›)).symm
@[simp] theorem real_min : Flt.min a b = min a b := by
  simp only [Flt.min, real_isNaN, real_lt, decide_eq_true_eq, Bool.false_eq_true, if_false]
  split
  · exact (min_eq_right (le_of_lt ‹_›)).symm
  · exact (min_eq_left (not_lt.mp ‹_›)).symm
@[simp] theorem real_lit0 : (@OfScientific.ofScientific ℝ Flt.toOfScientific 0 true 1) = 0 := by
  show (OfScientific.ofScientific 0 true 1 : ℝ) = 0; norm_num
@[simp] theorem real_lit1 : (@OfScientific.ofScientific ℝ Flt.toOfScientific 10 true 1) = 1 := by
  show (OfScientific.ofScientific 10 true 1 : ℝ) = 1; norm_num
@[simp] theorem real_lit2 : (@OfScientific.ofScientific ℝ Flt.toOfScientific 20 true 1) = 2 := by
  show (OfScientific.ofScientific 20 true 1 : ℝ) = 2; norm_num
/-- Decimal literals of the model, in a form understood by `norm_num`. -/
theorem real_sci (m e : Nat) : (@OfScientific.ofScientific ℝ Flt.toOfScientific m true e) = (m : ℝ) / 10 ^ e := by
  show (OfScientific.ofScientific m true e : ℝ) = _
  rw [← Rat.cast_ofScientific (K := ℝ)]
  show ((Rat.ofScientific m true e : ℚ) : ℝ) = _
  rw [Rat.ofScientific_true_def, Rat.mkRat_eq_div]
  push_cast; rfl
end simp_lemmas

theorem real_iterSum (l : List ℝ) : Flt.iterSum l = l.sum := by
  simp only [Flt.iterSum, real_lit0]
  exact List.sum_eq_foldl.symm

theorem real_clamp (x lo hi : ℝ) (h : lo ≤ hi) : Flt.clamp x lo hi = max lo (min hi x) := by
  simp only [Flt.clamp, real_lt, decide_eq_true_eq]
  by_cases h1 : x < lo
  · rw [if_pos h1, if_neg (not_lt.mpr h), min_eq_right (le_trans h1.le h), max_eq_left h1.le]
  · rw [if_neg h1]
    by_cases h2 : hi < x
    · rw [if_pos h2, min_eq_left h2.le, max_eq_right h]
    · rw [if_neg h2, min_eq_right (not_lt.mp h2), max_eq_right (not_lt.mp h1)]

theorem real_partialCmp (a b : ℝ) :
    Flt.partialCmp a b = some (if a < b then .lt else if b < a then .gt else .eq) := by
  simp only [Flt.partialCmp, real_lt, real_eq, decide_eq_true_eq]
  split
  · rfl
  · split
    · rfl
    · rw [if_pos (le_antisymm (not_lt.mp ‹_›) (not_lt.mp ‹_›))]

end Visqol
