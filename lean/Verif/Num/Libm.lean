import Verif.Num.Ieee
import Mathlib.Analysis.Complex.Trigonometric

/-!
# Floating point: what is assumed about the mathematical library and the transforms where a claim needs them to be accurate

`Ieee F` fixes the basic operations.  Claims that ordinary comparisons succeed in floating point also need the library functions
to be approximately right on ordinary arguments, sums not to blow up, and the transforms of `rustfft` to be bounded.  The
assumed accuracy (about 40 of the 53 binary digits, or less) is far below what libraries deliver.
`Verif/Num/Binary64.lean` and `Verif/Num/Binary64Libm.lean` show that correctly rounded binary64 has all these laws.
-/

namespace Visqol
open Ieee

/-- Accuracy of the library functions. -/
class Libm (F : Type) [Flt F] [Ieee F] : Prop where
  /-- one rounding error per summand, whatever the order of summation -/
  sum_acc : ∀ (l : List F) (xs : List ℝ) (B : ℝ), l.map val = xs.map .fin → 1 ≤ B → B ≤ 2 ^ 900 → (∀ x ∈ xs, |x| ≤ B) → l.length ≤ 2 ^ 50 →
    ∃ y, val (Flt.sum l) = .fin y ∧ |y - xs.sum| ≤ (l.length : ℝ) ^ 2 * B / 2 ^ 50
  /-- numbers that are not negative have a sum that is not negative, whatever the order of summation -/
  sum_nonneg : ∀ (l : List F) (y : ℝ), (∀ a ∈ l, ∃ x, val a = .fin x ∧ 0 ≤ x) → val (Flt.sum l) = .fin y → 0 ≤ y
  exp_acc : ∀ (a : F) (x : ℝ), val a = .fin x → |x| ≤ 500 →
    ∃ y, val (Flt.exp a) = .fin y ∧ |y - Real.exp x| ≤ Real.exp x / 2 ^ 40
  exp_num : ∀ (a : F) (x : ℝ), val a = .fin x → val (Flt.exp a) ≠ .nan
  exp_large : ∀ (a : F) (x : ℝ), val a = .fin x → 500 ≤ x → val (Flt.exp a) = .inf false ∨ ∃ y, val (Flt.exp a) = .fin y ∧ 1000 ≤ y
  ln_acc : ∀ (a : F) (x : ℝ), val a = .fin x → 1 ≤ x → x ≤ 2 ^ 100 →
    ∃ y, val (Flt.ln a) = .fin y ∧ |y - Real.log x| ≤ 1 / 2 ^ 40
  log2_acc : ∀ (a : F) (x : ℝ), val a = .fin x → 1 ≤ x → x ≤ 2 ^ 100 →
    ∃ y, val (Flt.log2 a) = .fin y ∧ |y - Real.logb 2 x| ≤ 1 / 2 ^ 40
  log10_acc : ∀ (a : F) (x : ℝ), val a = .fin x → 1 / 2 ^ 100 ≤ x → x ≤ 2 ^ 100 →
    ∃ y, val (Flt.log10 a) = .fin y ∧ |y - Real.logb 10 x| ≤ 1 / 2 ^ 40
  floor_val : ∀ (a : F) (x : ℝ), val a = .fin x → val (Flt.floor a) = rnd F (⌊x⌋ : ℝ)
  ceil_val : ∀ (a : F) (x : ℝ), val a = .fin x → val (Flt.ceil a) = rnd F (⌈x⌉ : ℝ)
  toI32_val : ∀ (a : F) (x : ℝ), val a = .fin x → Flt.toI32 a = realToInt (-2147483648) 2147483647 x
  toI16_val : ∀ (a : F) (x : ℝ), val a = .fin x → Flt.toI16 a = realToInt (-32768) 32767 x
  hypot_acc : ∀ (a b : F) (x y : ℝ), val a = .fin x → val b = .fin y → |x| ≤ 2 ^ 900 → |y| ≤ 2 ^ 900 →
    ∃ z, val (Flt.hypot a b) = .fin z ∧ |z - Real.sqrt (x ^ 2 + y ^ 2)| ≤ Real.sqrt (x ^ 2 + y ^ 2) / 2 ^ 40 + 1 / 2 ^ 900
  cos_acc : ∀ (a : F) (x : ℝ), val a = .fin x → |x| ≤ 2 ^ 20 → ∃ y, val (Flt.cos a) = .fin y ∧ |y - Real.cos x| ≤ 1 / 2 ^ 40
  sin_acc : ∀ (a : F) (x : ℝ), val a = .fin x → |x| ≤ 2 ^ 20 → ∃ y, val (Flt.sin a) = .fin y ∧ |y - Real.sin x| ≤ 1 / 2 ^ 40
  sin_zero : ∀ a : F, val a = .fin 0 → val (Flt.sin a) = .fin 0
  cosh_zero : ∀ a : F, val a = .fin 0 → val (Flt.cosh a) = .fin 1
  sinh_zero : ∀ a : F, val a = .fin 0 → val (Flt.sinh a) = .fin 0
  atan2_bound : ∀ (a b : F) (x y : ℝ), val a = .fin x → val b = .fin y → ∃ z, val (Flt.atan2 a b) = .fin z ∧ |z| ≤ 4
  atan2_zero : ∀ (a b : F) (y : ℝ), val a = .fin 0 → val b = .fin y → 0 < y → val (Flt.atan2 a b) = .fin 0
  powf_acc : ∀ (a b : F) (x y : ℝ), val a = .fin x → val b = .fin y → 0 < x → 1 / 2 ^ 500 ≤ x ^ y → x ^ y ≤ 2 ^ 500 →
    ∃ z, val (Flt.powf a b) = .fin z ∧ |z - x ^ y| ≤ x ^ y / 2 ^ 40
  pi_acc : ∃ y, val (Flt.pi : F) = .fin y ∧ |y - Real.pi| ≤ 1 / 2 ^ 40
  val_mulAdd : ∀ (a b c : F) (x y z : ℝ), val a = .fin x → val b = .fin y → val c = .fin z →
    val (Flt.mulAdd a b c) = rnd F (x * y + z)
  /-- gradual underflow: near zero the rounding error is at most the smallest number -/
  rnd_tight : ∀ x : ℝ, |x| ≤ 2 ^ 1000 → ∃ y, rnd F x = .fin y ∧ |y - x| ≤ |x| / 2 ^ 52 + 1 / 2 ^ 1074
  /-- gradual underflow: tiny differences are exact -/
  sub_small : ∀ (a b : F) (x y : ℝ), val a = .fin x → val b = .fin y → |x - y| ≤ 1 / 2 ^ 1021 → rnd F (x - y) = .fin (x - y)

/-- Sums have the order of magnitude of the exact sum's bound. -/
theorem Libm.sum_bound {F : Type} [Flt F] [Ieee F] [Libm F] (l : List F) (B : ℝ) (h1 : 1 ≤ B) (h2 : B ≤ 2 ^ 900)
    (h : ∀ a ∈ l, ∃ x, val a = .fin x ∧ |x| ≤ B) (hn : l.length ≤ 2 ^ 50) : ∃ y, val (Flt.sum l) = .fin y ∧ |y| ≤ 2 * l.length * B := by
  have hx : ∃ xs : List ℝ, l.map val = xs.map .fin ∧ ∀ x ∈ xs, |x| ≤ B := by
    clear hn
    induction l with
    | nil => exact ⟨[], rfl, by simp⟩
    | cons a l ih =>
      obtain ⟨xs, e, b⟩ := ih fun a ha => h a (List.mem_cons_of_mem _ ha)
      obtain ⟨x, hx, hb⟩ := h a List.mem_cons_self
      exact ⟨x :: xs, by rw [List.map_cons, List.map_cons, e, hx], fun y hy => by
        rcases List.mem_cons.mp hy with rfl | hy
        · exact hb
        · exact b y hy⟩
  obtain ⟨xs, e, b⟩ := hx
  obtain ⟨y, hy, he⟩ := Libm.sum_acc l xs B e h1 h2 b hn
  refine ⟨y, hy, ?_⟩
  have hl : l.length = xs.length := by simpa using congrArg List.length e
  have hs : |xs.sum| ≤ l.length * B := by
    rw [hl]
    clear he e hl
    induction xs with
    | nil => simp
    | cons a l ih =>
      rw [List.sum_cons, List.length_cons]
      push_cast
      have := ih (fun x hx => b x (List.mem_cons_of_mem _ hx))
      have := b a List.mem_cons_self
      exact (abs_add_le _ _).trans (by linarith)
  have h0 : (0 : ℝ) ≤ l.length := Nat.cast_nonneg _
  have h3 : (l.length : ℝ) ≤ 2 ^ 50 := by exact_mod_cast hn
  have h4 : (l.length : ℝ) ^ 2 * B / 2 ^ 50 ≤ l.length * B := by
    rw [div_le_iff₀ (by positivity)]
    have : (l.length : ℝ) * l.length ≤ l.length * 2 ^ 50 := mul_le_mul_of_nonneg_left h3 h0
    have := mul_le_mul_of_nonneg_right this (by linarith : 0 ≤ B)
    linarith
  have := abs_add_le (y - xs.sum) xs.sum
  rw [sub_add_cancel] at this
  linarith

/-- Real and imaginary part are finite and at most `B` in absolute value. -/
def CBound {F : Type} [Flt F] [Ieee F] (B : ℝ) (c : Cpx F) : Prop :=
  (∃ x, val c.re = .fin x ∧ |x| ≤ B) ∧ ∃ y, val c.im = .fin y ∧ |y| ≤ B

/-- What is assumed about the size of the transforms of `rustfft`. -/
class BoundedFft (F : Type) [Flt F] [Ieee F] [RustFft F] : Prop where
  forward_bound : ∀ (l : List (Cpx F)) (B : ℝ), 1 ≤ B → B ≤ 2 ^ 800 → l.length ≤ 2 ^ 40 → (∀ c ∈ l, CBound B c) →
    ∀ c ∈ RustFft.forward l, CBound (4 * l.length * B) c
  inverse_bound : ∀ (l : List (Cpx F)) (B : ℝ), 1 ≤ B → B ≤ 2 ^ 800 → l.length ≤ 2 ^ 40 → (∀ c ∈ l, CBound B c) →
    ∀ c ∈ RustFft.inverse l, CBound (4 * l.length * B) c

end Visqol
