import Mathlib.Analysis.Complex.Exponential
import Mathlib.Algebra.Order.BigOperators.Ring.Finset
import Mathlib.Algebra.Order.Chebyshev
import Mathlib.Algebra.BigOperators.Field

/-! # An upper bound for an expansion in Gaussian kernels -/

namespace Visqol.Svr
open Finset

/-- What the exponential series misses after the quadratic term. -/
theorem exp_tail {z : ℝ} (h0 : 0 ≤ z) (h1 : z ≤ 1) :
    1 + z + z ^ 2 / 2 ≤ Real.exp z ∧ Real.exp z ≤ 1 + z + z ^ 2 / 2 + z ^ 3 * (16 + 5 * z) / 96 := by
  constructor
  · have := Real.sum_le_exp_of_nonneg h0 3
    simp only [sum_range_succ, sum_range_zero, Nat.factorial] at this
    norm_num at this
    linarith
  · have := Real.exp_bound' h0 h1 (n := 4) (by norm_num)
    simp only [sum_range_succ, sum_range_zero, Nat.factorial] at this
    norm_num at this
    nlinarith [this]

theorem tail_mono {z y : ℝ} (h0 : 0 ≤ z) (h : z ≤ y) : z ^ 3 * (16 + 5 * z) / 96 ≤ y ^ 3 * (16 + 5 * y) / 96 := by
  have h3 : z ^ 3 ≤ y ^ 3 := pow_le_pow_left₀ h0 h 3
  have : z ^ 3 * (16 + 5 * z) ≤ y ^ 3 * (16 + 5 * y) :=
    mul_le_mul h3 (by linarith) (by linarith) (pow_nonneg (h0.trans h) 3)
  linarith

theorem tail_nonneg {z : ℝ} (h0 : 0 ≤ z) : 0 ≤ z ^ 3 * (16 + 5 * z) / 96 := by positivity

/-- One term. -/
theorem term_le {P N κ e z ε : ℝ} (hP : 0 ≤ P) (hN : 0 ≤ N) (he0 : 0 ≤ e) (hε : |e - κ| ≤ ε) (h0 : 0 ≤ z) (h1 : z ≤ 3 / 5) :
    (P - N) * (e * Real.exp z) ≤ (P - N) * κ * (1 + z + z ^ 2 / 2) + 2 * ε * (P + N) + P * e * (z ^ 3 * (16 + 5 * z) / 96) := by
  obtain ⟨a, b⟩ := exp_tail h0 (by linarith)
  have d1 := (abs_le.mp hε).1
  have d2 := (abs_le.mp hε).2
  generalize z ^ 3 * (16 + 5 * z) / 96 = R at *
  have hs2 : 1 + z + z ^ 2 / 2 ≤ 2 := by nlinarith
  have hs0 : 0 ≤ 1 + z + z ^ 2 / 2 := by positivity
  generalize 1 + z + z ^ 2 / 2 = s at *
  have hε0 : 0 ≤ ε := (abs_nonneg _).trans hε
  have k1 : P * (e * Real.exp z) ≤ P * (e * (s + R)) :=
    mul_le_mul_of_nonneg_left (mul_le_mul_of_nonneg_left b he0) hP
  have k2 : N * (e * s) ≤ N * (e * Real.exp z) :=
    mul_le_mul_of_nonneg_left (mul_le_mul_of_nonneg_left a he0) hN
  have k3 : P * ((e - κ) * s) ≤ P * (ε * 2) :=
    mul_le_mul_of_nonneg_left (mul_le_mul d2 hs2 hs0 hε0) hP
  have k4 : N * ((κ - e) * s) ≤ N * (ε * 2) :=
    mul_le_mul_of_nonneg_left (mul_le_mul (by linarith) hs2 hs0 hε0) hN
  linarith [mul_add P (e * s) (e * R)]

/-- The whole expansion, with a bound for each order. -/
theorem expansion_le {n m : ℕ} {P N κ e : ℕ → ℝ} {τ : ℕ → ℕ → ℝ} {w : ℕ → ℝ} {ε A L Q C q : ℝ} (hε0 : 0 ≤ ε)
    (hP : ∀ i < n, 0 ≤ P i) (hN : ∀ i < n, 0 ≤ N i) (he : ∀ i, e i = Real.exp (-(1 / 100 * ∑ j ∈ range m, τ i j ^ 2)))
    (hε : ∀ i < n, |e i - κ i| ≤ ε) (hτ : ∀ i j, 0 ≤ τ i j) (hw : ∀ j < m, 0 ≤ w j ∧ w j ≤ 2)
    (ht : ∀ i < n, ∑ j ∈ range m, τ i j ≤ 15)
    (hA : ∑ i ∈ range n, (P i - N i) * κ i ≤ A)
    (hL : ∑ j ∈ range m, w j * ∑ i ∈ range n, (P i - N i) * κ i * τ i j ≤ L)
    (hQ : ∑ j ∈ range m, w j * ∑ k ∈ range m, w k * ∑ i ∈ range n, (P i - N i) * κ i * τ i j * τ i k ≤ Q)
    (hC : ∑ i ∈ range n, (P i + N i) ≤ C) (hq : q = ∑ j ∈ range m, w j ^ 2) :
    ∃ z : ℕ → ℝ, (∀ i < n, 0 ≤ z i ∧ z i ≤ 1 / 25 * ∑ j ∈ range m, τ i j ∧ z i ^ 2 ≤ 1 / 2500 * q * ∑ j ∈ range m, τ i j ^ 2) ∧
      ∑ i ∈ range n, (P i - N i) * Real.exp (-(1 / 100 * ∑ j ∈ range m, (τ i j - w j) ^ 2)) ≤
        max 0 (Real.exp (-(1 / 100 * q)) * (A + L / 50 + Q / 5000 + 2 * ε * C +
          ∑ i ∈ range n, P i * e i * (z i ^ 3 * (16 + 5 * z i) / 96))) := by
  refine ⟨fun i => 1 / 50 * ∑ j ∈ range m, w j * τ i j, fun i hi => ⟨?_, ?_, ?_⟩, ?_⟩
  · exact mul_nonneg (by norm_num) (sum_nonneg fun j hj => mul_nonneg (hw j (mem_range.mp hj)).1 (hτ i j))
  · have : ∑ j ∈ range m, w j * τ i j ≤ ∑ j ∈ range m, 2 * τ i j :=
      sum_le_sum fun j hj => mul_le_mul_of_nonneg_right (hw j (mem_range.mp hj)).2 (hτ i j)
    rw [← mul_sum] at this
    dsimp only
    linarith
  · have := sum_mul_sq_le_sq_mul_sq (range m) w (τ i)
    rw [← hq] at this
    dsimp only
    rw [mul_pow]
    nlinarith
  · have hz : ∀ i < n, 0 ≤ 1 / 50 * ∑ j ∈ range m, w j * τ i j ∧ 1 / 50 * ∑ j ∈ range m, w j * τ i j ≤ 3 / 5 := by
      intro i hi
      refine ⟨mul_nonneg (by norm_num) (sum_nonneg fun j hj => mul_nonneg (hw j (mem_range.mp hj)).1 (hτ i j)), ?_⟩
      have : ∑ j ∈ range m, w j * τ i j ≤ ∑ j ∈ range m, 2 * τ i j :=
        sum_le_sum fun j hj => mul_le_mul_of_nonneg_right (hw j (mem_range.mp hj)).2 (hτ i j)
      rw [← mul_sum] at this
      have := ht i hi
      linarith
    have hk : ∀ i, Real.exp (-(1 / 100 * ∑ j ∈ range m, (τ i j - w j) ^ 2)) =
        Real.exp (-(1 / 100 * q)) * (e i * Real.exp (1 / 50 * ∑ j ∈ range m, w j * τ i j)) := by
      intro i
      rw [he, ← Real.exp_add, ← Real.exp_add, hq]
      congr 1
      have : ∑ j ∈ range m, (τ i j - w j) ^ 2 = ∑ j ∈ range m, τ i j ^ 2 - 2 * ∑ j ∈ range m, w j * τ i j + ∑ j ∈ range m, w j ^ 2 := by
        rw [mul_sum, ← sum_sub_distrib, ← sum_add_distrib]
        exact sum_congr rfl fun j _ => by ring
      rw [this]
      ring
    simp only [hk]
    have hfac : ∑ i ∈ range n, (P i - N i) * (Real.exp (-(1 / 100 * q)) * (e i * Real.exp (1 / 50 * ∑ j ∈ range m, w j * τ i j))) =
        Real.exp (-(1 / 100 * q)) * ∑ i ∈ range n, (P i - N i) * (e i * Real.exp (1 / 50 * ∑ j ∈ range m, w j * τ i j)) := by
      rw [mul_sum]
      exact sum_congr rfl fun i _ => by ring
    rw [hfac]
    have hsum : ∑ i ∈ range n, (P i - N i) * (e i * Real.exp (1 / 50 * ∑ j ∈ range m, w j * τ i j)) ≤
        A + L / 50 + Q / 5000 + 2 * ε * C + ∑ i ∈ range n, P i * e i *
          ((1 / 50 * ∑ j ∈ range m, w j * τ i j) ^ 3 * (16 + 5 * (1 / 50 * ∑ j ∈ range m, w j * τ i j)) / 96) := by
      have h1 : ∑ i ∈ range n, (P i - N i) * (e i * Real.exp (1 / 50 * ∑ j ∈ range m, w j * τ i j)) ≤
          ∑ i ∈ range n, ((P i - N i) * κ i * (1 + (1 / 50 * ∑ j ∈ range m, w j * τ i j) + (1 / 50 * ∑ j ∈ range m, w j * τ i j) ^ 2 / 2) +
            2 * ε * (P i + N i) + P i * e i *
          ((1 / 50 * ∑ j ∈ range m, w j * τ i j) ^ 3 * (16 + 5 * (1 / 50 * ∑ j ∈ range m, w j * τ i j)) / 96)) :=
        sum_le_sum fun i hi => term_le (hP i (mem_range.mp hi)) (hN i (mem_range.mp hi)) (by rw [he]; positivity)
          (hε i (mem_range.mp hi)) (hz i (mem_range.mp hi)).1 (hz i (mem_range.mp hi)).2
      refine h1.trans ?_
      rw [sum_add_distrib, sum_add_distrib, ← mul_sum]
      have hsplit : ∑ i ∈ range n, (P i - N i) * κ i * (1 + (1 / 50 * ∑ j ∈ range m, w j * τ i j) + (1 / 50 * ∑ j ∈ range m, w j * τ i j) ^ 2 / 2) =
          ∑ i ∈ range n, (P i - N i) * κ i + (∑ j ∈ range m, w j * ∑ i ∈ range n, (P i - N i) * κ i * τ i j) / 50 +
          (∑ j ∈ range m, w j * ∑ k ∈ range m, w k * ∑ i ∈ range n, (P i - N i) * κ i * τ i j * τ i k) / 5000 := by
        have e1 : ∑ j ∈ range m, w j * ∑ i ∈ range n, (P i - N i) * κ i * τ i j =
            ∑ i ∈ range n, (P i - N i) * κ i * ∑ j ∈ range m, w j * τ i j := by
          simp only [mul_sum]
          rw [sum_comm]
          exact sum_congr rfl fun i _ => sum_congr rfl fun j _ => by ring
        have e2 : ∑ j ∈ range m, w j * ∑ k ∈ range m, w k * ∑ i ∈ range n, (P i - N i) * κ i * τ i j * τ i k =
            ∑ i ∈ range n, (P i - N i) * κ i * (∑ j ∈ range m, w j * τ i j) ^ 2 := by
          have : ∀ i, (P i - N i) * κ i * (∑ j ∈ range m, w j * τ i j) ^ 2 =
              ∑ j ∈ range m, ∑ k ∈ range m, w j * (w k * ((P i - N i) * κ i * τ i j * τ i k)) := by
            intro i
            rw [pow_two, sum_mul_sum, mul_sum]
            refine sum_congr rfl fun j _ => ?_
            rw [mul_sum]
            exact sum_congr rfl fun k _ => by ring
          simp only [this]
          rw [sum_comm]
          refine sum_congr rfl fun j _ => ?_
          rw [sum_comm, mul_sum]
          refine sum_congr rfl fun k _ => ?_
          rw [← mul_sum, ← mul_sum]
        rw [e1, e2, sum_div, sum_div, ← sum_add_distrib, ← sum_add_distrib]
        exact sum_congr rfl fun i _ => by ring
      rw [hsplit]
      have hεC : 2 * ε * ∑ i ∈ range n, (P i + N i) ≤ 2 * ε * C := mul_le_mul_of_nonneg_left hC (by linarith)
      linarith
    rcases le_total 0 (A + L / 50 + Q / 5000 + 2 * ε * C + ∑ i ∈ range n, P i * e i *
          ((1 / 50 * ∑ j ∈ range m, w j * τ i j) ^ 3 * (16 + 5 * (1 / 50 * ∑ j ∈ range m, w j * τ i j)) / 96)) with h | h
    · exact le_max_of_le_right (mul_le_mul_of_nonneg_left hsum (Real.exp_pos _).le)
    · exact le_max_of_le_left (mul_nonpos_of_nonneg_of_nonpos (Real.exp_pos _).le (hsum.trans h))

end Visqol.Svr
