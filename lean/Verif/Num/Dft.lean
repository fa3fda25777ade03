import Verif.Num.Real
import Mathlib.Analysis.SpecialFunctions.Complex.Log
import Mathlib.Analysis.SpecialFunctions.Complex.Circle
import Mathlib.RingTheory.RootsOfUnity.Complex
import Mathlib.Algebra.Field.GeomSum

/-! # The discrete Fourier transform as the exact-arithmetic instance of `rustfft` -/

namespace Visqol
open Finset Complex

/-- The complex number represented by a pair. -/
def Cpx.toC (z : Cpx ℝ) : ℂ := ⟨z.re, z.im⟩
/-- The pair representing a complex number. -/
def Cpx.ofC (z : ℂ) : Cpx ℝ := ⟨z.re, z.im⟩

@[simp] theorem Cpx.toC_ofC (z : ℂ) : (Cpx.ofC z).toC = z := rfl
@[simp] theorem Cpx.ofC_toC (z : Cpx ℝ) : Cpx.ofC z.toC = z := rfl

/-- `exp (2 π i t / N)` -/
noncomputable def rootE (N : ℕ) (t : ℤ) : ℂ := Complex.exp (2 * Real.pi * Complex.I * t / N)

/-- Entry `n` of a list of pairs as a complex number (zero outside). -/
noncomputable def entryC (l : List (Cpx ℝ)) (n : ℕ) : ℂ := ((l[n]?).map Cpx.toC).getD 0

/-- The unnormalised discrete Fourier transform with kernel `exp (sign * 2 π i k n / N)`. -/
noncomputable def dftSum (sign : ℤ) (l : List (Cpx ℝ)) (k : ℕ) : ℂ :=
  ∑ n ∈ range l.length, entryC l n * rootE l.length (sign * (k * n))

/-- The whole transform. -/
noncomputable def dftList (sign : ℤ) (l : List (Cpx ℝ)) : List (Cpx ℝ) :=
  (List.range l.length).map fun k => Cpx.ofC (dftSum sign l k)

noncomputable instance : RustFft ℝ where
  forward := dftList (-1)
  inverse := dftList 1
  length_forward l := by simp [dftList]
  length_inverse l := by simp [dftList]

theorem rustFft_forward (l : List (Cpx ℝ)) : RustFft.forward l = dftList (-1) l := rfl
theorem rustFft_inverse (l : List (Cpx ℝ)) : RustFft.inverse l = dftList 1 l := rfl

theorem dftList_length (s : ℤ) (l : List (Cpx ℝ)) : (dftList s l).length = l.length := by simp [dftList]

theorem entryC_dftList {s : ℤ} {l : List (Cpx ℝ)} {k : ℕ} (h : k < l.length) : entryC (dftList s l) k = dftSum s l k := by
  simp [entryC, dftList, List.getElem?_range h]

theorem rootE_add (N : ℕ) (s t : ℤ) : rootE N (s + t) = rootE N s * rootE N t := by
  unfold rootE
  rw [← Complex.exp_add]
  congr 1
  push_cast
  ring

theorem rootE_zero (N : ℕ) : rootE N 0 = 1 := by simp [rootE]

theorem rootE_conj (N : ℕ) (t : ℤ) : (starRingEnd ℂ) (rootE N t) = rootE N (-t) := by
  unfold rootE
  rw [← Complex.exp_conj]
  congr 1
  simp only [map_div₀, map_mul, Complex.conj_ofReal, Complex.conj_I, map_ofNat, map_intCast, map_natCast]
  push_cast
  ring

theorem rootE_nat_mul (N : ℕ) (k : ℕ) (t : ℤ) : rootE N (k * t) = (rootE N t) ^ k := by
  induction k with
  | zero => simp [rootE_zero]
  | succ k ih =>
    rw [pow_succ, ← ih, ← rootE_add]
    congr 1
    push_cast; ring

theorem rootE_eq_one_iff {N : ℕ} (hN : 0 < N) (t : ℤ) : rootE N t = 1 ↔ (N : ℤ) ∣ t := by
  unfold rootE
  rw [Complex.exp_eq_one_iff]
  have hN' : (N : ℂ) ≠ 0 := by exact_mod_cast hN.ne'
  have hpi : (2 * Real.pi * Complex.I : ℂ) ≠ 0 := Complex.two_pi_I_ne_zero
  constructor
  · rintro ⟨n, hn⟩
    refine ⟨n, ?_⟩
    have h : (t : ℂ) / N = n := by
      apply mul_left_cancel₀ hpi
      rw [← mul_div_assoc, hn]; ring
    rw [div_eq_iff hN'] at h
    have : (t : ℂ) = ((N * n : ℤ) : ℂ) := by rw [h]; push_cast; ring
    exact_mod_cast this
  · rintro ⟨n, rfl⟩
    refine ⟨n, ?_⟩
    push_cast
    field_simp

/-- Orthogonality of the characters. -/
theorem rootE_sum {N : ℕ} (hN : 0 < N) (t : ℤ) :
    ∑ k ∈ range N, rootE N (k * t) = if (N : ℤ) ∣ t then (N : ℂ) else 0 := by
  simp only [rootE_nat_mul]
  split
  · rename_i h
    rw [(rootE_eq_one_iff hN t).mpr h]; simp
  · rename_i h
    have h1 : rootE N t ≠ 1 := fun e => h ((rootE_eq_one_iff hN t).mp e)
    rw [geom_sum_eq h1]
    have : rootE N t ^ N = 1 := by
      rw [← rootE_nat_mul, rootE_eq_one_iff hN]
      exact Dvd.intro _ rfl
    rw [this]; simp

/-- Circular cross-correlation via the DFT: the inverse transform of `X * conj Y` at `m` is `N` times the sum of
`x a * conj (y b)` over `a ≡ b + m (mod N)`. -/
theorem dft_correlation {N : ℕ} (hN : 0 < N) (x y : ℕ → ℂ) (m : ℤ) :
    ∑ k ∈ range N, ((∑ a ∈ range N, x a * rootE N (-1 * (k * a))) *
        (starRingEnd ℂ) (∑ b ∈ range N, y b * rootE N (-1 * (k * b)))) * rootE N (k * m) =
      N * ∑ a ∈ range N, ∑ b ∈ range N, if (N : ℤ) ∣ (m - a + b) then x a * (starRingEnd ℂ) (y b) else 0 := by
  have e : ∀ k ∈ range N, ((∑ a ∈ range N, x a * rootE N (-1 * (k * a))) *
        (starRingEnd ℂ) (∑ b ∈ range N, y b * rootE N (-1 * (k * b)))) * rootE N (k * m) =
      ∑ a ∈ range N, ∑ b ∈ range N, x a * (starRingEnd ℂ) (y b) * rootE N (k * (m - a + b)) := by
    intro k _
    rw [map_sum, Finset.sum_mul_sum, Finset.sum_mul]
    apply Finset.sum_congr rfl; intro a _
    rw [Finset.sum_mul]
    apply Finset.sum_congr rfl; intro b _
    rw [map_mul, rootE_conj]
    have : rootE N (k * (m - a + b)) = rootE N (-1 * (k * a)) * rootE N (-(-1 * (k * b))) * rootE N (k * m) := by
      rw [← rootE_add, ← rootE_add]; congr 1; ring
    rw [this]; ring
  rw [Finset.sum_congr rfl e, Finset.sum_comm, Finset.mul_sum]
  apply Finset.sum_congr rfl; intro a _
  rw [Finset.sum_comm, Finset.mul_sum]
  apply Finset.sum_congr rfl; intro b _
  rw [← Finset.mul_sum, rootE_sum hN]
  split <;> ring

end Visqol
