import Verif.Num.Dft
import Mathlib.Analysis.InnerProductSpace.PiL2
import Mathlib.Algebra.Order.BigOperators.Ring.Finset

/-! # The discrete Fourier transform and the Euclidean norm -/

namespace Visqol
open Finset

/-- The Euclidean norm of the first `N` entries. -/
noncomputable def nrm (N : ℕ) (x : ℕ → ℂ) : ℝ := Real.sqrt (∑ n ∈ range N, ‖x n‖ ^ 2)

/-- The unnormalised transform with kernel `exp (sign * 2 π i k n / N)`. -/
noncomputable def dft (N : ℕ) (sign : ℤ) (x : ℕ → ℂ) (k : ℕ) : ℂ := ∑ n ∈ range N, x n * rootE N (sign * (k * n))

theorem nrm_nonneg (N : ℕ) (x : ℕ → ℂ) : 0 ≤ nrm N x := Real.sqrt_nonneg _

theorem nrm_sq (N : ℕ) (x : ℕ → ℂ) : nrm N x ^ 2 = ∑ n ∈ range N, ‖x n‖ ^ 2 :=
  Real.sq_sqrt (Finset.sum_nonneg fun _ _ => sq_nonneg _)

theorem nrm_eq_norm (N : ℕ) (x : ℕ → ℂ) : nrm N x = ‖(WithLp.toLp 2 fun i : Fin N => x i : EuclideanSpace ℂ (Fin N))‖ := by
  rw [EuclideanSpace.norm_eq, nrm, Finset.sum_range]

theorem nrm_add_le (N : ℕ) (x y : ℕ → ℂ) : nrm N (fun n => x n + y n) ≤ nrm N x + nrm N y := by
  rw [nrm_eq_norm, nrm_eq_norm, nrm_eq_norm]
  exact norm_add_le (WithLp.toLp 2 fun i : Fin N => x i : EuclideanSpace ℂ (Fin N)) (WithLp.toLp 2 fun i : Fin N => y i)

theorem nrm_congr {N : ℕ} {x y : ℕ → ℂ} (h : ∀ n < N, x n = y n) : nrm N x = nrm N y := by
  unfold nrm
  rw [Finset.sum_congr rfl fun n hn => by rw [h n (Finset.mem_range.mp hn)]]

theorem nrm_triangle (N : ℕ) (x y z : ℕ → ℂ) : nrm N (fun n => x n - z n) ≤ nrm N (fun n => x n - y n) + nrm N (fun n => y n - z n) := by
  refine le_trans (le_of_eq (nrm_congr fun n _ => ?_)) (nrm_add_le N _ _)
  ring

theorem nrm_le_add_sub (N : ℕ) (x y : ℕ → ℂ) : nrm N x ≤ nrm N (fun n => x n - y n) + nrm N y := by
  refine le_trans (le_of_eq (nrm_congr fun n _ => ?_)) (nrm_add_le N _ _)
  ring

theorem nrm_le_mul {N : ℕ} {x y : ℕ → ℂ} {c : ℝ} (hc : 0 ≤ c) (h : ∀ n < N, ‖x n‖ ≤ c * ‖y n‖) : nrm N x ≤ c * nrm N y := by
  refine Real.sqrt_le_iff.mpr ⟨mul_nonneg hc (nrm_nonneg _ _), ?_⟩
  rw [mul_pow, nrm_sq, Finset.mul_sum]
  refine Finset.sum_le_sum fun n hn => ?_
  rw [← mul_pow]
  exact pow_le_pow_left₀ (norm_nonneg _) (h n (Finset.mem_range.mp hn)) 2

theorem nrm_le_const {N : ℕ} {x : ℕ → ℂ} {c : ℝ} (hc : 0 ≤ c) (h : ∀ n < N, ‖x n‖ ≤ c) : nrm N x ≤ c * Real.sqrt N := by
  refine Real.sqrt_le_iff.mpr ⟨mul_nonneg hc (Real.sqrt_nonneg _), ?_⟩
  rw [mul_pow, Real.sq_sqrt (Nat.cast_nonneg _)]
  refine (Finset.sum_le_sum fun n hn => pow_le_pow_left₀ (norm_nonneg _) (h n (Finset.mem_range.mp hn)) 2).trans ?_
  rw [Finset.sum_const, Finset.card_range, nsmul_eq_mul, mul_comm]

theorem nrm_le_mul_add {N : ℕ} {x y : ℕ → ℂ} {c d : ℝ} (hc : 0 ≤ c) (hd : 0 ≤ d) (h : ∀ n < N, ‖x n‖ ≤ c * ‖y n‖ + d) :
    nrm N x ≤ c * nrm N y + d * Real.sqrt N := by
  have h1 : nrm N x ≤ nrm N (fun n => ((c * ‖y n‖ : ℝ) : ℂ) + ((d : ℝ) : ℂ)) := by
    refine (nrm_le_mul zero_le_one fun n hn => ?_).trans (le_of_eq (one_mul _))
    rw [one_mul, ← Complex.ofReal_add, Complex.norm_real, Real.norm_eq_abs,
      abs_of_nonneg (add_nonneg (mul_nonneg hc (norm_nonneg _)) hd)]
    exact h n hn
  refine h1.trans ((nrm_add_le N _ _).trans (add_le_add ?_ ?_))
  · refine nrm_le_mul hc fun n _ => ?_
    rw [Complex.norm_real, Real.norm_eq_abs, abs_of_nonneg (mul_nonneg hc (norm_nonneg _))]
  · refine nrm_le_const hd fun n _ => ?_
    rw [Complex.norm_real, Real.norm_eq_abs, abs_of_nonneg hd]

theorem nrm_le_three {N : ℕ} {x y z : ℕ → ℂ} {a b d : ℝ} (ha : 0 ≤ a) (hb : 0 ≤ b) (hd : 0 ≤ d)
    (h : ∀ n < N, ‖z n‖ ≤ a * ‖x n‖ + (d + b * ‖y n‖)) : nrm N z ≤ a * nrm N x + (d * Real.sqrt N + b * nrm N y) := by
  have h1 : nrm N z ≤ nrm N (fun n => ((a * ‖x n‖ : ℝ) : ℂ) + ((d + b * ‖y n‖ : ℝ) : ℂ)) := by
    refine (nrm_le_mul zero_le_one fun n hn => ?_).trans (le_of_eq (one_mul _))
    rw [one_mul, ← Complex.ofReal_add, Complex.norm_real, Real.norm_eq_abs, abs_of_nonneg (by positivity)]
    exact h n hn
  refine h1.trans ((nrm_add_le N _ _).trans (add_le_add ?_ ?_))
  · refine nrm_le_mul ha fun n _ => ?_
    rw [Complex.norm_real, Real.norm_eq_abs, abs_of_nonneg (mul_nonneg ha (norm_nonneg _))]
  · refine (nrm_le_mul_add hb hd fun n _ => ?_).trans (le_of_eq (add_comm _ _))
    rw [Complex.norm_real, Real.norm_eq_abs, abs_of_nonneg (by positivity), add_comm]

theorem le_nrm {N n : ℕ} (x : ℕ → ℂ) (h : n < N) : ‖x n‖ ≤ nrm N x := by
  refine Real.le_sqrt_of_sq_le ?_
  exact Finset.single_le_sum (f := fun n => ‖x n‖ ^ 2) (fun _ _ => sq_nonneg _) (Finset.mem_range.mpr h)

theorem nrm_mono_len {M N : ℕ} (x : ℕ → ℂ) (h : M ≤ N) : nrm M x ≤ nrm N x :=
  Real.sqrt_le_sqrt (Finset.sum_le_sum_of_subset_of_nonneg (Finset.range_subset_range.mpr h) fun _ _ _ => sq_nonneg _)

theorem nrm_zero_pad {M N : ℕ} {x : ℕ → ℂ} (h : M ≤ N) (hx : ∀ n, M ≤ n → x n = 0) : nrm N x = nrm M x := by
  unfold nrm
  rw [← Finset.sum_subset (Finset.range_subset_range.mpr h)]
  intro n _ hn
  rw [hx n (by simpa using hn)]
  simp

theorem cauchy (N : ℕ) (x y : ℕ → ℂ) : ∑ n ∈ range N, ‖x n‖ * ‖y n‖ ≤ nrm N x * nrm N y := by
  rw [nrm, nrm, ← Real.sqrt_mul (Finset.sum_nonneg fun _ _ => sq_nonneg _)]
  exact Real.le_sqrt_of_sq_le (Finset.sum_mul_sq_le_sq_mul_sq _ _ _)

theorem nrm_le_sum (N : ℕ) (x : ℕ → ℂ) : nrm N x ≤ ∑ n ∈ range N, ‖x n‖ := by
  have h0 : 0 ≤ ∑ n ∈ range N, ‖x n‖ := Finset.sum_nonneg fun _ _ => norm_nonneg _
  exact Real.sqrt_le_iff.mpr ⟨h0, Finset.sum_sq_le_sq_sum_of_nonneg fun _ _ => norm_nonneg _⟩

theorem norm_rootE (N : ℕ) (t : ℤ) : ‖rootE N t‖ = 1 := by
  unfold rootE
  rw [show (2 * Real.pi * Complex.I * t / N : ℂ) = ((2 * Real.pi * t / N : ℝ) : ℂ) * Complex.I by push_cast; ring]
  exact Complex.norm_exp_ofReal_mul_I _

theorem dft_norm_le (N : ℕ) (s : ℤ) (x : ℕ → ℂ) (k : ℕ) : ‖dft N s x k‖ ≤ ∑ n ∈ range N, ‖x n‖ := by
  refine (norm_sum_le _ _).trans (Finset.sum_le_sum fun n _ => ?_)
  rw [norm_mul, norm_rootE, mul_one]

theorem dft_sub (N : ℕ) (s : ℤ) (x y : ℕ → ℂ) (k : ℕ) : dft N s (fun n => x n - y n) k = dft N s x k - dft N s y k := by
  unfold dft
  rw [← Finset.sum_sub_distrib]
  exact Finset.sum_congr rfl fun n _ => by ring

theorem parseval_fwd {N : ℕ} (hN : 0 < N) (x : ℕ → ℂ) : nrm N (dft N (-1) x) = Real.sqrt N * nrm N x := by
  have h := dft_correlation hN x x 0
  have h1 : ∑ k ∈ range N, ‖dft N (-1) x k‖ ^ 2 = N * ∑ n ∈ range N, ‖x n‖ ^ 2 := by
    have e1 : ∑ k ∈ range N, ((∑ a ∈ range N, x a * rootE N (-1 * (k * a))) *
        (starRingEnd ℂ) (∑ b ∈ range N, x b * rootE N (-1 * (k * b)))) * rootE N (k * 0) = ((∑ k ∈ range N, ‖dft N (-1) x k‖ ^ 2 : ℝ) : ℂ) := by
      push_cast
      refine Finset.sum_congr rfl fun k _ => ?_
      rw [mul_zero, rootE_zero, mul_one, Complex.mul_conj, Complex.normSq_eq_norm_sq]
      push_cast
      rfl
    have e2 : ∑ a ∈ range N, ∑ b ∈ range N, (if (N : ℤ) ∣ (0 - a + b) then x a * (starRingEnd ℂ) (x b) else 0) =
        ((∑ n ∈ range N, ‖x n‖ ^ 2 : ℝ) : ℂ) := by
      push_cast
      refine Finset.sum_congr rfl fun a ha => ?_
      have ha := Finset.mem_range.mp ha
      rw [Finset.sum_eq_single a]
      · rw [if_pos (by simp), Complex.mul_conj, Complex.normSq_eq_norm_sq]
        push_cast; rfl
      · intro b hb hne
        have hb := Finset.mem_range.mp hb
        rw [if_neg]
        intro hd
        have := Int.eq_zero_of_abs_lt_dvd hd (by rw [abs_lt]; omega)
        omega
      · intro h; exact absurd (Finset.mem_range.mpr ha) h
    rw [e1, e2] at h
    exact_mod_cast h
  unfold nrm
  rw [h1, Real.sqrt_mul (Nat.cast_nonneg _)]

theorem dft_conj (N : ℕ) (s : ℤ) (x : ℕ → ℂ) (k : ℕ) : dft N (-s) x k = (starRingEnd ℂ) (dft N s (fun n => (starRingEnd ℂ) (x n)) k) := by
  unfold dft
  rw [map_sum]
  refine Finset.sum_congr rfl fun n _ => ?_
  rw [map_mul, Complex.conj_conj, rootE_conj]
  congr 2
  ring

theorem parseval_inv {N : ℕ} (hN : 0 < N) (x : ℕ → ℂ) : nrm N (dft N 1 x) = Real.sqrt N * nrm N x := by
  have h := parseval_fwd hN (fun n => (starRingEnd ℂ) (x n))
  have e1 : nrm N (fun n => (starRingEnd ℂ) (x n)) = nrm N x := by unfold nrm; simp
  have e2 : nrm N (dft N (-1) (fun n => (starRingEnd ℂ) (x n))) = nrm N (dft N 1 x) := by
    unfold nrm
    congr 1
    refine Finset.sum_congr rfl fun k _ => ?_
    have := dft_conj N (-1) x k
    rw [neg_neg] at this
    rw [this, RCLike.norm_conj]
  rw [e1, e2] at h
  exact h

end Visqol
