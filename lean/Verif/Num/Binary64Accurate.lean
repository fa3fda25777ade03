import Verif.Num.Accurate
import Verif.Num.Binary64Libm
import Verif.Lemmas.DftNorm

/-! # The correctly rounded transform on binary64 satisfies `AccurateFft` -/

namespace Visqol
namespace B64
open Finset

theorem list_range_sum (n : ℕ) (f : ℕ → ℝ) : ((List.range n).map f).sum = ∑ i ∈ range n, f i := by
  induction n with
  | zero => simp
  | succ n ih => rw [List.range_succ, List.map_append, List.sum_append, ih, Finset.sum_range_succ]; simp

theorem rootE_parts {N : ℕ} {s : ℤ} (hs : s = -1 ∨ s = 1) (k n : ℕ) :
    (rootE N (s * (k * n))).re = Real.cos (2 * Real.pi * k * n / N) ∧
    (rootE N (s * (k * n))).im = (s : ℝ) * Real.sin (2 * Real.pi * k * n / N) := by
  have e : rootE N (s * (k * n)) = Complex.exp (((s : ℝ) * (2 * Real.pi * k * n / N) : ℝ) * Complex.I) := by
    unfold rootE
    congr 1
    push_cast
    ring
  rw [e, Complex.exp_ofReal_mul_I_re, Complex.exp_ofReal_mul_I_im]
  rcases hs with rfl | rfl
  · push_cast
    rw [neg_one_mul, Real.cos_neg, Real.sin_neg]
    simp
  · push_cast
    rw [one_mul]
    simp

theorem round_sq {t : ℝ} (h : |t| ≤ 2 ^ 1000) : ∃ y, (ofReal t).val = .fin y ∧ (y - t) ^ 2 ≤ 2 * (t ^ 2 / 2 ^ 104) + 2 * (1 / 2 ^ 2000) := by
  obtain ⟨y, e, hy⟩ := rnd_acc h
  refine ⟨y, e, ?_⟩
  have h1 : (y - t) ^ 2 ≤ (|t| / 2 ^ 52 + 1 / 2 ^ 1000) ^ 2 := by
    rw [← sq_abs (y - t)]
    exact pow_le_pow_left₀ (abs_nonneg _) hy 2
  refine h1.trans ?_
  have e1 : t ^ 2 / 2 ^ 104 = (|t| / 2 ^ 52) ^ 2 := by rw [div_pow, sq_abs, ← pow_mul]
  have e2 : (1 : ℝ) / 2 ^ 2000 = (1 / 2 ^ 1000) ^ 2 := by rw [div_pow, one_pow, ← pow_mul]
  rw [e1, e2]
  generalize |t| / 2 ^ 52 = a
  generalize (1 : ℝ) / 2 ^ 1000 = b
  nlinarith [sq_nonneg (a - b)]

theorem fft_acc {s : ℤ} (hs : s = -1 ∨ s = 1) (l : List (Cpx B64)) (x : ℕ → ℂ) (hv : CVals l x) (hn : l.length ≤ 2 ^ 40)
    (hx : ∀ n < l.length, ‖x n‖ ≤ 2 ^ 300) :
    ∃ y, CVals (fft s l) y ∧ ∑ k ∈ range l.length, ‖y k - dft l.length s x k‖ ^ 2
      ≤ l.length * (∑ n ∈ range l.length, ‖x n‖ ^ 2) / 2 ^ 80 + 1 / 2 ^ 800 := by
  have hfin : ∀ c ∈ l, CFin c := fun c hc => by
    obtain ⟨n, hn, rfl⟩ := List.getElem_of_mem hc
    exact ⟨⟨_, (hv n hn).1⟩, ⟨_, (hv n hn).2⟩⟩
  have hget : ∀ n < l.length, (l.getD n ⟨ofReal 0, ofReal 0⟩).re.real = (x n).re ∧ (l.getD n ⟨ofReal 0, ofReal 0⟩).im.real = (x n).im := by
    intro n hn
    rw [List.getD_eq_getElem?_getD, List.getElem?_eq_getElem hn]
    exact ⟨real_fin (hv n hn).1, real_fin (hv n hn).2⟩
  have hre : ∀ k, fftRe s l k = (dft l.length s x k).re := by
    intro k
    unfold fftRe dft
    rw [Complex.re_sum, list_range_sum]
    refine Finset.sum_congr rfl fun n hn => ?_
    rw [Complex.mul_re, (rootE_parts hs k n).1, (rootE_parts hs k n).2, (hget n (Finset.mem_range.mp hn)).1, (hget n (Finset.mem_range.mp hn)).2]
  have him : ∀ k, fftIm s l k = (dft l.length s x k).im := by
    intro k
    unfold fftIm dft
    rw [Complex.im_sum, list_range_sum]
    refine Finset.sum_congr rfl fun n hn => ?_
    rw [Complex.mul_im, (rootE_parts hs k n).1, (rootE_parts hs k n).2, (hget n (Finset.mem_range.mp hn)).1, (hget n (Finset.mem_range.mp hn)).2]
  have hsize : ∀ k, ‖dft l.length s x k‖ ≤ 2 ^ 1000 := by
    intro k
    refine (dft_norm_le _ _ _ _).trans ?_
    refine (Finset.sum_le_sum fun n hn => hx n (Finset.mem_range.mp hn)).trans ?_
    rw [Finset.sum_const, Finset.card_range, nsmul_eq_mul]
    calc (l.length : ℝ) * 2 ^ 300 ≤ 2 ^ 40 * 2 ^ 300 := by gcongr; exact_mod_cast hn
      _ = 2 ^ 340 := by rw [← pow_add]
      _ ≤ 2 ^ 1000 := pow_le (by norm_num)
  have h1 : ∀ k, ∃ y : ℂ, (ofReal (fftRe s l k)).val = .fin y.re ∧ (ofReal (fftIm s l k)).val = .fin y.im ∧
      ‖y - dft l.length s x k‖ ^ 2 ≤ 2 * (‖dft l.length s x k‖ ^ 2 / 2 ^ 104) + 4 * (1 / 2 ^ 2000) := by
    intro k
    obtain ⟨a, ea, ha⟩ := round_sq (t := fftRe s l k) (by rw [hre]; exact (Complex.abs_re_le_norm _).trans (hsize k))
    obtain ⟨b, eb, hb⟩ := round_sq (t := fftIm s l k) (by rw [him]; exact (Complex.abs_im_le_norm _).trans (hsize k))
    refine ⟨⟨a, b⟩, ea, eb, ?_⟩
    rw [hre] at ha
    rw [him] at hb
    generalize dft l.length s x k = d at *
    rw [← Complex.normSq_eq_norm_sq, ← Complex.normSq_eq_norm_sq, Complex.normSq_apply, Complex.normSq_apply, Complex.sub_re, Complex.sub_im]
    generalize (1 : ℝ) / 2 ^ 2000 = u at *
    have : (d.re * d.re + d.im * d.im) / (2 : ℝ) ^ 104 = d.re ^ 2 / 2 ^ 104 + d.im ^ 2 / 2 ^ 104 := by ring
    rw [this]
    clear hsize
    dsimp only
    linarith [ha, hb, sq (a - d.re), sq (b - d.im)]
  choose y hy1 hy2 hy3 using h1
  refine ⟨y, ?_, ?_⟩
  · intro n h
    have e : fft s l = (List.range l.length).map fun k => ⟨ofReal (fftRe s l k), ofReal (fftIm s l k)⟩ := by rw [fft, if_pos hfin]
    have e2 : (fft s l)[n] = ⟨ofReal (fftRe s l n), ofReal (fftIm s l n)⟩ := by
      simp only [e, List.getElem_map, List.getElem_range]
    rw [e2]
    exact ⟨hy1 n, hy2 n⟩
  · refine (Finset.sum_le_sum fun k _ => hy3 k).trans ?_
    rw [Finset.sum_add_distrib, ← Finset.mul_sum, ← Finset.sum_div, Finset.sum_const, Finset.card_range, nsmul_eq_mul]
    have hp : ∑ k ∈ range l.length, ‖dft l.length s x k‖ ^ 2 = l.length * ∑ n ∈ range l.length, ‖x n‖ ^ 2 := by
      rcases Nat.eq_zero_or_pos l.length with h0 | h0
      · rw [h0]; simp
      have hpv : nrm l.length (dft l.length s x) = Real.sqrt l.length * nrm l.length x := by
        rcases hs with rfl | rfl
        · exact parseval_fwd h0 x
        · exact parseval_inv h0 x
      rw [← nrm_sq, ← nrm_sq, hpv, mul_pow, Real.sq_sqrt (Nat.cast_nonneg _)]
    rw [hp]
    have hS : 0 ≤ (l.length : ℝ) * ∑ n ∈ range l.length, ‖x n‖ ^ 2 :=
      mul_nonneg (Nat.cast_nonneg _) (Finset.sum_nonneg fun _ _ => sq_nonneg _)
    have ht : (l.length : ℝ) * (4 * (1 / 2 ^ 2000)) ≤ 1 / 2 ^ 800 := by
      have e1 : (1 : ℝ) / 2 ^ 800 = 2 ^ 1200 * (1 / 2 ^ 2000) := by
        rw [show (2 : ℝ) ^ 2000 = 2 ^ 1200 * 2 ^ 800 by rw [← pow_add]]
        field_simp
      rw [e1, ← mul_assoc]
      refine mul_le_mul_of_nonneg_right ?_ (by positivity)
      calc (l.length : ℝ) * 4 ≤ 2 ^ 40 * 2 ^ 2 := by
            have : (l.length : ℝ) ≤ 2 ^ 40 := by exact_mod_cast hn
            rw [show ((2 : ℝ) ^ 2) = 4 by norm_num]
            exact mul_le_mul_of_nonneg_right this (by norm_num)
        _ = 2 ^ 42 := by rw [← pow_add]
        _ ≤ 2 ^ 1200 := pow_le_pow_right₀ (by norm_num) (by norm_num)
    refine add_le_add ?_ ht
    generalize (l.length : ℝ) * ∑ n ∈ range l.length, ‖x n‖ ^ 2 = S at *
    rw [mul_div_assoc']
    rw [div_le_div_iff₀ (by positivity) (by positivity)]
    have : (2 : ℝ) * 2 ^ 80 ≤ 2 ^ 104 := by norm_num
    calc 2 * S * 2 ^ 80 = S * (2 * 2 ^ 80) := by ring
      _ ≤ S * 2 ^ 104 := mul_le_mul_of_nonneg_left this hS

instance : AccurateFft B64 where
  forward_acc l x hv hn hx := by
    have h := fft_acc (s := -1) (Or.inl rfl) l x hv hn hx
    push_cast at h
    exact h
  inverse_acc l x hv hn hx := by
    have h := fft_acc (s := 1) (Or.inr rfl) l x hv hn hx
    push_cast at h
    exact h

end B64
end Visqol
