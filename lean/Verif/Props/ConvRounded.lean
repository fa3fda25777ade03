import Verif.Lemmas.IeeeSelf
import Verif.Props.Nsim
import Verif.Props.FilterRounded

/-! # C42 and C43 in floating point: 2-D filtering up to rounding -/

set_option linter.unusedSectionVars false

namespace Visqol

open Ieee

variable {F : Type} [Flt F] [Ieee F]

/-- One product of finite numbers added to the running sum. -/
theorem Acc.product {P : ℝ} (h1 : 1 ≤ P) (h2 : P ≤ 2 ^ 900) {p a w : F} {e y ω k n : ℝ} (hp : Acc P p e k) (he : |e| ≤ n * P)
    (ha : Is a y) (hw : Is w ω) (hyw : |y * ω| ≤ P) (hk : k ≤ 100) (hn0 : 0 ≤ n) (hn : n ≤ 9) :
    Acc P (p + a * w) (e + y * ω) (k + n + 3) ∧ |e + y * ω| ≤ (n + 1) * P := by
  obtain ⟨z, hz, hze⟩ := hp
  refine ⟨?_, by have := abs_add_le e (y * ω); linarith only [this, he, hyw]⟩
  have hb : 16 * P ≤ 2 ^ 1000 := by
    have h3 := two_pow_mono (m := 904) (n := 1000) (by norm_num)
    have h4 : (2 : ℝ) ^ 904 = 16 * 2 ^ 900 := by rw [show 904 = 900 + 4 from rfl, pow_add]; ring
    rw [h4] at h3
    exact (mul_le_mul_of_nonneg_left h2 (by norm_num)).trans h3
  obtain ⟨t, ht, hte⟩ := rnd_err F hyw h1 (h2.trans (two_pow_mono (by norm_num)))
  have hT : Is (a * w) t := (Is.mul ha hw).trans ht
  have hU : 0 < P / 2 ^ 51 := by positivity
  have hU2 : 1000 * (P / 2 ^ 51) ≤ P / 10 := by
    rw [mul_div_assoc', div_le_div_iff₀ (by norm_num) (by norm_num)]
    clear hb h2
    norm_num; linarith
  have hkB : k * (P / 2 ^ 51) ≤ 100 * (P / 2 ^ 51) := mul_le_mul_of_nonneg_right hk hU.le
  have hzt : |z + t - (e + y * ω)| ≤ (k + 1) * (P / 2 ^ 51) := by
    rw [show z + t - (e + y * ω) = (z - e) + (t - y * ω) by ring]
    have i1 := abs_add_le (z - e) (t - y * ω)
    linarith only [i1, hze, hte]
  have hzb : |z + t| ≤ (n + 2) * P := by
    have i1 := abs_add_le (z + t - (e + y * ω)) (e + y * ω)
    rw [sub_add_cancel] at i1
    have i2 := abs_add_le e (y * ω)
    linarith only [i1, i2, hzt, he, hyw, hkB, hU2, hU, h1]
  have hn2 : (n + 2) * P ≤ 16 * P := mul_le_mul_of_nonneg_right (by linarith only [hn]) (by linarith only [h1])
  have hn3 : 0 ≤ n * P := mul_nonneg hn0 (by linarith only [h1])
  obtain ⟨s, hs, hse⟩ := rnd_err F hzb (by linarith only [h1, hn3]) (hn2.trans hb)
  refine ⟨s, (Is.add hz hT).trans hs, ?_⟩
  have i1 := abs_add_le (s - (z + t)) (z + t - (e + y * ω))
  rw [sub_add_sub_cancel] at i1
  rw [mul_div_assoc] at hse
  linarith only [i1, hse, hzt]

/-- Neighbours of a non-empty matrix are cells of it. -/
theorem near_cell {m : Mat F} (hn : 0 < m.nrows) (hc : 0 < m.ncols) (r j u v : Nat) :
    ∃ a b, a < m.nrows ∧ b < m.ncols ∧ m.near r j u v = m.at a b :=
  ⟨_, _, by omega, by omega, rfl⟩

/-- C42 in floating point: for finite matrices and kernels whose products are at most `P` (at least 1, at most `2^900`), every cell of the
result is finite and within `P / 2^45` of the exact weighted sum. -/
theorem C42_rounded (p : Profile) (m : Mat F) (wf : m.WF) (hn : 0 < m.nrows) (hc : 0 < m.ncols) (k : Fin 3 → Fin 3 → F) {P : ℝ}
    (h1 : 1 ≤ P) (h2 : P ≤ 2 ^ 900) (hm : ∀ r j, r < m.nrows → j < m.ncols → ∃ y, val (m.at r j) = .fin y)
    (hk : ∀ u v, ∃ w, val (k u v) = .fin w)
    (hP : ∀ r j u v, r < m.nrows → j < m.ncols → |number (m.at r j) * number (k u v)| ≤ P) :
    ∃ out, conv2d p ⟨3, [[k 0 0, k 0 1, k 0 2], [k 1 0, k 1 1, k 1 2], [k 2 0, k 2 1, k 2 2]]⟩ m = .ok out ∧ out.WF ∧ out.SameShape m ∧
      ∀ r j, r < m.nrows → j < m.ncols → (∃ y, val (out.at r j) = .fin y) ∧
        |number (out.at r j) - ∑ u : Fin 3, ∑ v : Fin 3, number (k (Fin.rev v) (Fin.rev u)) * number (m.near r j u v)| ≤ P / 2 ^ 45 := by
  obtain ⟨out, o1, o2, o3, o4⟩ := C42_conv p m wf hn hc (k 0 0) (k 0 1) (k 0 2) (k 1 0) (k 1 1) (k 1 2) (k 2 0) (k 2 1) (k 2 2)
  refine ⟨out, o1, o2, o3, fun r j hr hj => ?_⟩
  rw [o4 r j hr hj]
  have hx : ∀ u v, Is (m.near r j u v) (number (m.near r j u v)) := by
    intro u v
    obtain ⟨a, b, ha, hb, e⟩ := near_cell hn hc r j u v
    obtain ⟨y, hy⟩ := hm a b ha hb
    rw [e, number_is hy]
    exact hy
  have hw : ∀ u v, Is (k u v) (number (k u v)) := by
    intro u v
    obtain ⟨y, hy⟩ := hk u v
    rw [number_is hy]
    exact hy
  have hp : ∀ u v a b, |number (m.near r j u v) * number (k a b)| ≤ P := by
    intro u v a b
    obtain ⟨c, d, hc', hd, e⟩ := near_cell hn hc r j u v
    rw [e]
    exact hP c d a b hc' hd
  have s0 : Acc P (0.0 : F) 0 0 := ⟨0, val_0, by simp⟩
  obtain ⟨s1, t1⟩ := s0.product h1 h2 (n := 0) (by simp) (hx 0 0) (hw 2 2) (hp _ _ _ _) (by norm_num) (by norm_num) (by norm_num)
  obtain ⟨s2, t2⟩ := s1.product h1 h2 t1 (hx 1 0) (hw 2 1) (hp _ _ _ _) (by norm_num) (by norm_num) (by norm_num)
  obtain ⟨s3, t3⟩ := s2.product h1 h2 t2 (hx 2 0) (hw 2 0) (hp _ _ _ _) (by norm_num) (by norm_num) (by norm_num)
  obtain ⟨s4, t4⟩ := s3.product h1 h2 t3 (hx 0 1) (hw 1 2) (hp _ _ _ _) (by norm_num) (by norm_num) (by norm_num)
  obtain ⟨s5, t5⟩ := s4.product h1 h2 t4 (hx 1 1) (hw 1 1) (hp _ _ _ _) (by norm_num) (by norm_num) (by norm_num)
  obtain ⟨s6, t6⟩ := s5.product h1 h2 t5 (hx 2 1) (hw 1 0) (hp _ _ _ _) (by norm_num) (by norm_num) (by norm_num)
  obtain ⟨s7, t7⟩ := s6.product h1 h2 t6 (hx 0 2) (hw 0 2) (hp _ _ _ _) (by norm_num) (by norm_num) (by norm_num)
  obtain ⟨s8, t8⟩ := s7.product h1 h2 t7 (hx 1 2) (hw 0 1) (hp _ _ _ _) (by norm_num) (by norm_num) (by norm_num)
  obtain ⟨s9, _⟩ := s8.product h1 h2 t8 (hx 2 2) (hw 0 0) (hp _ _ _ _) (by norm_num) (by norm_num) (by norm_num)
  obtain ⟨z, hz, hze⟩ := s9
  refine ⟨⟨z, hz⟩, ?_⟩
  rw [number_is hz]
  have r0 : Fin.rev (0 : Fin 3) = 2 := rfl
  have r1 : Fin.rev (1 : Fin 3) = 1 := rfl
  have r2 : Fin.rev (2 : Fin 3) = 0 := rfl
  simp only [Fin.sum_univ_three, r0, r1, r2, Fin.val_zero, Fin.val_one, Fin.val_two]
  refine le_trans (le_of_eq ?_) (hze.trans ?_)
  · congr 1
    ring
  · have hP0 : 0 < P := by linarith only [h1]
    rw [mul_div_assoc', div_le_div_iff₀ (by norm_num) (by norm_num)]
    clear * - hP0
    norm_num
    linarith

/-- C43 in floating point: with cells of size at most `B` (at least 1, at most `2^900`) the filtered value of every cell is finite and lies
between the smallest and the largest value of its neighbourhood up to `B / 2^45`. -/
theorem C43_rounded (p : Profile) (m : Mat F) (wf : m.WF) (hn : 0 < m.nrows) (hc : 0 < m.ncols) {B : ℝ} (h1 : 1 ≤ B) (h2 : B ≤ 2 ^ 900)
    (hm : ∀ r j, r < m.nrows → j < m.ncols → ∃ y, val (m.at r j) = .fin y ∧ |y| ≤ B) :
    ∃ out, conv2d p nsimWindow m = .ok out ∧ out.WF ∧ out.SameShape m ∧
      ∀ r j, r < m.nrows → j < m.ncols → (∃ y, val (out.at r j) = .fin y) ∧
        ∀ lo hi, (∀ u < 3, ∀ v < 3, lo ≤ number (m.near r j u v) ∧ number (m.near r j u v) ≤ hi) →
          lo - B / 2 ^ 45 ≤ number (out.at r j) ∧ number (out.at r j) ≤ hi + B / 2 ^ 45 := by
  refine ⟨_, conv2d_eq p m wf hn hc _ _ _ _ _ _ _ _ _, Mat.ofFn_wf _ _ _, ⟨by simp, rfl⟩, fun r j hr hj => ?_⟩
  rw [Mat.ofFn_at _ _ _ _ _ hr hj]
  have hx : ∀ u v, Is (m.near r j u v) (number (m.near r j u v)) ∧ |number (m.near r j u v)| ≤ B := by
    intro u v
    obtain ⟨a, b, ha, hb, e⟩ := near_cell hn hc r j u v
    obtain ⟨y, hy, hy'⟩ := hm a b ha hb
    rw [e, number_is hy]
    exact ⟨hy, hy'⟩
  obtain ⟨⟨z, hz, hze⟩, _⟩ := nsimAvg_acc h1 h2 (fun u v => (hx u v).1) (fun u v => (hx u v).2)
  refine ⟨⟨z, hz⟩, fun lo hi h => ?_⟩
  have e : number (nsimAvg (m.near r j)) = z := number_is hz
  have l1 : lo ≤ nsimAvg fun u v => number (m.near r j u v) := by
    rw [← nsimAvg_const lo]; exact nsimAvg_mono fun u hu v hv => (h u hu v hv).1
  have l2 : (nsimAvg fun u v => number (m.near r j u v)) ≤ hi := by
    rw [← nsimAvg_const hi]; exact nsimAvg_mono fun u hu v hv => (h u hu v hv).2
  have hu : 36 * (B / 2 ^ 51) ≤ B / 2 ^ 45 := by
    have hB0 : 0 < B := by linarith only [h1]
    rw [mul_div_assoc', div_le_div_iff₀ (by norm_num) (by norm_num)]
    clear * - hB0
    norm_num
    linarith
  obtain ⟨b1, b2⟩ := abs_le.mp hze
  change lo - _ ≤ number (nsimAvg (m.near r j)) ∧ number (nsimAvg (m.near r j)) ≤ _
  rw [e]
  exact ⟨by linarith only [b1, l1, hu], by linarith only [b2, l2, hu]⟩

/-- The hypotheses of both theorems are met by a small matrix and kernel. -/
example : ∃ (m : Mat F) (k : Fin 3 → Fin 3 → F), m.WF ∧ 0 < m.nrows ∧ 0 < m.ncols ∧
    (∀ r j, r < m.nrows → j < m.ncols → ∃ y, val (m.at r j) = .fin y ∧ |y| ≤ 2) ∧ (∀ u v, ∃ w, val (k u v) = .fin w) ∧
    ∀ r j u v, r < m.nrows → j < m.ncols → |number (m.at r j) * number (k u v)| ≤ 4 := by
  have hc : ∀ r j, r < 1 → j < 2 → val ((⟨2, [[1.0, 2.0]]⟩ : Mat F).at r j) = .fin ((j : ℝ) + 1) := by
    intro r j hr hj
    obtain rfl : r = 0 := by omega
    have h2 : j = 0 ∨ j = 1 := by omega
    rcases h2 with rfl | rfl
    · have := val_1 (F := F); simpa [Mat.at] using this
    · have := val_2 (F := F); simp [Mat.at]; rw [this]; norm_num
  refine ⟨⟨2, [[1.0, 2.0]]⟩, fun _ _ => 2.0, ?_, by simp [Mat.nrows], by simp, fun r j hr hj => ⟨_, hc r j hr hj, ?_⟩, fun _ _ => ⟨2, val_2⟩,
    fun r j _ _ hr hj => ?_⟩
  · intro r hr; simp at hr; subst hr; rfl
  · have h : (j : ℝ) ≤ 1 := by exact_mod_cast Nat.le_of_lt_succ hj
    rw [abs_of_nonneg (by positivity)]; linarith
  · rw [number_is (hc r j hr hj), number_is (val_2 (F := F))]
    have h : (j : ℝ) ≤ 1 := by exact_mod_cast Nat.le_of_lt_succ hj
    rw [abs_of_nonneg (by positivity)]; linarith

end Visqol
