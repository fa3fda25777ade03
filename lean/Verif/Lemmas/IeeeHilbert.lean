import Verif.Lemmas.IeeeDft
import Verif.Props.Envelope

/-! # Floating point: the weighted spectrum of the envelope computation -/

set_option linter.unusedSectionVars false

namespace Visqol
open Ieee
open Finset (range)

/-- The weights as real numbers. -/
noncomputable def wt (len N k : ℕ) : ℝ := hilbertWeight (F := ℝ) len N k

theorem wt_cases (len N k : ℕ) : wt len N k = 0 ∨ wt len N k = 1 ∨ wt len N k = 2 := by
  unfold wt hilbertWeight
  split_ifs <;> simp only [real_lit0, real_lit1, real_lit2] <;> simp

theorem abs_wt_le (len N k : ℕ) : |wt len N k| ≤ 2 := by
  rcases wt_cases len N k with h | h | h <;> rw [h] <;> norm_num

/-- The exact result of weighting the spectrum of `x`. -/
noncomputable def hilb (len N : ℕ) (x : ℕ → ℂ) (t : ℕ) : ℝ := (dft N 1 (fun k => (wt len N k : ℂ) * dft N (-1) x k) t).re / N

theorem hilb_sub_le {len N : ℕ} (hN : 1 ≤ N) (x y : ℕ → ℂ) :
    nrm N (fun t => ((hilb len N x t : ℝ) : ℂ) - ((hilb len N y t : ℝ) : ℂ)) ≤ 2 * nrm N (fun t => x t - y t) := by
  have hN0 : (0 : ℝ) < N := by exact_mod_cast hN
  have h1 : nrm N (fun t => ((hilb len N x t : ℝ) : ℂ) - ((hilb len N y t : ℝ) : ℂ)) ≤
      1 / N * nrm N (dft N 1 (fun k => (wt len N k : ℂ) * dft N (-1) x k - (wt len N k : ℂ) * dft N (-1) y k)) := by
    refine nrm_le_mul (by positivity) fun t _ => ?_
    rw [← Complex.ofReal_sub, Complex.norm_real, Real.norm_eq_abs]
    unfold hilb
    rw [← sub_div, abs_div, abs_of_nonneg hN0.le, div_eq_mul_one_div, mul_comm, ← Complex.sub_re, ← dft_sub]
    exact mul_le_mul_of_nonneg_left (Complex.abs_re_le_norm _) (by positivity)
  refine h1.trans ?_
  rw [parseval_inv (by omega)]
  have h2 : nrm N (fun k => (wt len N k : ℂ) * dft N (-1) x k - (wt len N k : ℂ) * dft N (-1) y k) ≤
      2 * nrm N (dft N (-1) (fun t => x t - y t)) := by
    refine nrm_le_mul (by norm_num) fun k _ => ?_
    rw [dft_sub, ← mul_sub, norm_mul, Complex.norm_real, Real.norm_eq_abs]
    exact mul_le_mul_of_nonneg_right (abs_wt_le _ _ _) (norm_nonneg _)
  rw [parseval_fwd (by omega)] at h2
  have hsq : Real.sqrt N * Real.sqrt N = N := Real.mul_self_sqrt (Nat.cast_nonneg _)
  calc 1 / N * (Real.sqrt N * nrm N _) ≤ 1 / N * (Real.sqrt N * (2 * (Real.sqrt N * nrm N (fun t => x t - y t)))) :=
        mul_le_mul_of_nonneg_left (mul_le_mul_of_nonneg_left h2 (Real.sqrt_nonneg _)) (by positivity)
    _ = 1 / N * (Real.sqrt N * Real.sqrt N) * (2 * nrm N (fun t => x t - y t)) := by ring
    _ = 2 * nrm N (fun t => x t - y t) := by rw [hsq]; field_simp

theorem hilb_zero {len N : ℕ} (t : ℕ) : hilb len N (fun _ => 0) t = 0 := by
  unfold hilb dft; simp

theorem hilb_le {len N : ℕ} (hN : 1 ≤ N) (x : ℕ → ℂ) : nrm N (fun t => ((hilb len N x t : ℝ) : ℂ)) ≤ 2 * nrm N x := by
  have := hilb_sub_le (len := len) hN x (fun _ => 0)
  simpa [hilb_zero] using this

theorem hilb_eq {N : ℕ} (y : List ℝ) (ho : N % 2 = 1 → y.length % 2 = 1) (h2 : 2 ≤ y.length) (hle : y.length ≤ N) {t : ℕ} (ht : t < y.length) :
    hilb y.length N (seqC y) t = y.getD t 0 - Spec.missing y.length N * Spec.highest y N t := by
  rw [← hilbert_real y ho h2 hle ht]
  unfold hilb
  congr 1
  unfold dft
  rw [Complex.re_sum]
  refine Finset.sum_congr rfl fun k _ => ?_
  rw [mul_assoc, Complex.re_ofReal_mul, Finset.sum_mul, Complex.re_sum]
  unfold wt
  congr 1
  refine Finset.sum_congr rfl fun a _ => ?_
  unfold seqC
  rw [mul_assoc, Complex.re_ofReal_mul, ← rootE_add]
  unfold cosE
  congr 3
  ring

variable {F : Type} [Flt F] [Ieee F]

theorem is_weight (len N k : ℕ) : Is (hilbertWeight (F := F) len N k) (wt len N k) := by
  unfold wt hilbertWeight
  split_ifs <;> simp only [real_lit0, real_lit1, real_lit2] <;> first | exact val_2 (F := F) | exact val_1 (F := F) | exact val_0 (F := F)

variable [RustFft F] [AccurateFft F]

/-- The computed weighting of the spectrum, in the Euclidean norm. -/
theorem hilbert_acc {m : FftManager} {s : List F} {ys : List ℝ} (hv : Vals s ys) (hl : s.length = m.samplesPerChannel)
    (hs : m.samplesPerChannel ≤ m.fftSize) (h1 : 1 ≤ m.fftSize) (h40 : m.fftSize ≤ 2 ^ 40) (hA : nrm m.fftSize (seqC ys) ≤ 2 ^ 100) :
    ∃ t us, inverse1d m (List.zipWith Cpx.smul (forward1d m s) ((List.range m.fftSize).map (hilbertWeight (F := F) s.length m.fftSize))) = .ok t ∧
      t.length = s.length ∧ Vals t us ∧
      nrm s.length (fun n => seqC us n - ((hilb s.length m.fftSize (seqC ys) n : ℝ) : ℂ)) ≤ 8 * (nrm m.fftSize (seqC ys) + 1) / 2 ^ 40 := by
  obtain ⟨Y, hY, hE⟩ := forward1d_acc hv (by omega) h1 h40 hA
  have hYn := nrm_forward h1 hE
  have hflen := forward1d_length m s
  have hA0 := nrm_nonneg m.fftSize (seqC ys)
  have hN : (1 : ℝ) ≤ m.fftSize := by exact_mod_cast h1
  have hr1 : 1 ≤ Real.sqrt m.fftSize := Real.one_le_sqrt.mpr hN
  have hsq : Real.sqrt m.fftSize * Real.sqrt m.fftSize = m.fftSize := Real.mul_self_sqrt (Nat.cast_nonneg _)
  have hrb : Real.sqrt m.fftSize ≤ 2 ^ 20 := by
    have : (m.fftSize : ℝ) ≤ 2 ^ 40 := by exact_mod_cast h40
    nlinarith
  have hYb : nrm m.fftSize Y ≤ 2 ^ 125 := by
    have : (1 : ℝ) ≤ 2 ^ 100 := one_le_pow₀ (by norm_num)
    calc nrm m.fftSize Y ≤ Real.sqrt m.fftSize * ((1 + 1 / 2 ^ 40) * (nrm m.fftSize (seqC ys) + 1)) := hYn
      _ ≤ 2 ^ 20 * (2 * (2 * 2 ^ 100)) := by
          refine mul_le_mul hrb (mul_le_mul (by norm_num) (by linarith) (by linarith) (by norm_num)) (by positivity) (by positivity)
      _ ≤ 2 ^ 125 := by norm_num
  -- the weighted spectrum
  have hcell : ∀ k < m.fftSize, ∃ z : ℂ, rnd F ((Y k).re * wt s.length m.fftSize k) = .fin z.re ∧
      rnd F ((Y k).im * wt s.length m.fftSize k) = .fin z.im ∧
      ‖z - wt s.length m.fftSize k * Y k‖ ≤ 1 / 2 ^ 50 * ‖Y k‖ + 1 / 2 ^ 150 := by
    intro k hk
    have hb : ‖Y k‖ ≤ 2 ^ 125 := (le_nrm Y hk).trans hYb
    have hw := abs_wt_le s.length m.fftSize k
    generalize wt s.length m.fftSize k = w at *
    have part : ∀ a : ℝ, |a| ≤ ‖Y k‖ → ∃ z, rnd F (a * w) = .fin z ∧ |z - a * w| ≤ 1 / 2 ^ 51 * ‖Y k‖ + tau := by
      intro a ha
      have g1 : |a * w| ≤ 2 * ‖Y k‖ := by
        rw [abs_mul, mul_comm]
        exact mul_le_mul hw ha (abs_nonneg _) (by norm_num)
      obtain ⟨z, hz, hze⟩ := rnd_tau F (x := a * w) (g1.trans (by
        calc 2 * ‖Y k‖ ≤ 2 * 2 ^ 125 := by linarith
          _ ≤ 2 ^ 200 := by norm_num))
      refine ⟨z, hz, hze.trans (add_le_add ?_ le_rfl)⟩
      calc |a * w| / 2 ^ 52 ≤ 2 * ‖Y k‖ / 2 ^ 52 := div_le_div_of_nonneg_right g1 (by positivity)
        _ = 1 / 2 ^ 51 * ‖Y k‖ := by ring
    obtain ⟨a, ha, hae⟩ := part _ (Complex.abs_re_le_norm (Y k))
    obtain ⟨b, hb', hbe⟩ := part _ (Complex.abs_im_le_norm (Y k))
    refine ⟨⟨a, b⟩, ha, hb', ?_⟩
    have g := Complex.norm_le_abs_re_add_abs_im ((⟨a, b⟩ : ℂ) - w * Y k)
    rw [Complex.sub_re, Complex.sub_im, Complex.re_ofReal_mul, Complex.im_ofReal_mul, mul_comm w, mul_comm w] at g
    have ht : 2 * tau ≤ 1 / 2 ^ 150 := by
      have := tau_le
      have g2 : 2 * ((1 : ℝ) / 2 ^ 200) ≤ 1 / 2 ^ 150 := by norm_num
      linarith
    have e : (1 : ℝ) / 2 ^ 50 * ‖Y k‖ = 1 / 2 ^ 51 * ‖Y k‖ + 1 / 2 ^ 51 * ‖Y k‖ := by ring
    rw [e]
    generalize (1 : ℝ) / 2 ^ 51 * ‖Y k‖ = q at *
    generalize (1 : ℝ) / 2 ^ 150 = q' at *
    dsimp only at g
    linarith only [g, hae, hbe, ht]
  choose! Z hZ1 hZ2 hZe using hcell
  have hZv : CVals (List.zipWith Cpx.smul (forward1d m s) ((List.range m.fftSize).map (hilbertWeight (F := F) s.length m.fftSize))) Z := by
    intro n hn
    have hn' : n < m.fftSize := by simpa [hflen] using hn
    rw [List.getElem_zipWith, List.getElem_map, List.getElem_range]
    have hw := is_weight (F := F) s.length m.fftSize n
    obtain ⟨y1, y2⟩ := hY n (by omega)
    refine ⟨?_, ?_⟩
    · show val (_ * _) = _
      rw [Is.mul (show Is _ _ from y1) hw]; exact hZ1 n hn'
    · show val (_ * _) = _
      rw [Is.mul (show Is _ _ from y2) hw]; exact hZ2 n hn'
  have hzl : (List.zipWith Cpx.smul (forward1d m s) ((List.range m.fftSize).map (hilbertWeight (F := F) s.length m.fftSize))).length = m.fftSize := by
    simp [hflen]
  -- distance from the exact weighted spectrum
  have hd : nrm m.fftSize (fun k => Z k - wt s.length m.fftSize k * dft m.fftSize (-1) (seqC ys) k) ≤
      9 / 4 * Real.sqrt m.fftSize * (nrm m.fftSize (seqC ys) + 1) / 2 ^ 40 := by
    refine (nrm_triangle _ Z (fun k => wt s.length m.fftSize k * Y k) _).trans ?_
    have d1 : nrm m.fftSize (fun k => Z k - wt s.length m.fftSize k * Y k) ≤ 1 / 2 ^ 50 * nrm m.fftSize Y + 1 / 2 ^ 150 * Real.sqrt m.fftSize :=
      nrm_le_mul_add (by positivity) (by positivity) fun k hk => hZe k hk
    have d2 : nrm m.fftSize (fun k => wt s.length m.fftSize k * Y k - wt s.length m.fftSize k * dft m.fftSize (-1) (seqC ys) k) ≤
        2 * nrm m.fftSize (fun k => Y k - dft m.fftSize (-1) (seqC ys) k) := by
      refine nrm_le_mul (by norm_num) fun k _ => ?_
      rw [← mul_sub, norm_mul, Complex.norm_real, Real.norm_eq_abs]
      exact mul_le_mul_of_nonneg_right (abs_wt_le _ _ _) (norm_nonneg _)
    refine (add_le_add d1 d2).trans ?_
    clear d1 d2 hZe hZ1 hZ2
    generalize nrm m.fftSize (fun k => Y k - dft m.fftSize (-1) (seqC ys) k) = d at *
    generalize nrm m.fftSize Y = yy at *
    generalize nrm m.fftSize (seqC ys) = A at *
    generalize Real.sqrt (m.fftSize : ℝ) = r at *
    have hr0 : 0 ≤ r := by linarith
    have hrA : 0 ≤ r * A := mul_nonneg hr0 hA0
    have e1 : r * ((1 + 1 / 2 ^ 40) * (A + 1)) = (1 + 1 / 2 ^ 40) * (r * A + r) := by ring
    have e2 : r * (A + 1) / 2 ^ 40 = 1 / 2 ^ 40 * (r * A + r) := by ring
    have e3 : 9 / 4 * r * (A + 1) / 2 ^ 40 = 9 / 4 / 2 ^ 40 * (r * A + r) := by ring
    rw [e1] at hYn
    rw [e2] at hE
    rw [e3]
    generalize r * A = q at *
    clear hYb hA e1 e2 e3
    norm_num at *
    linarith
  have hZn : nrm m.fftSize Z ≤ 3 * Real.sqrt m.fftSize * (nrm m.fftSize (seqC ys) + 1) := by
    have g1 := nrm_le_add_sub m.fftSize Z (fun k => wt s.length m.fftSize k * dft m.fftSize (-1) (seqC ys) k)
    have g2 : nrm m.fftSize (fun k => wt s.length m.fftSize k * dft m.fftSize (-1) (seqC ys) k) ≤ 2 * nrm m.fftSize (dft m.fftSize (-1) (seqC ys)) := by
      refine nrm_le_mul (by norm_num) fun k _ => ?_
      rw [norm_mul, Complex.norm_real, Real.norm_eq_abs]
      exact mul_le_mul_of_nonneg_right (abs_wt_le _ _ _) (norm_nonneg _)
    rw [parseval_fwd (by omega)] at g2
    have e3 : 9 / 4 * Real.sqrt m.fftSize * (nrm m.fftSize (seqC ys) + 1) / 2 ^ 40 ≤ Real.sqrt m.fftSize * (nrm m.fftSize (seqC ys) + 1) := by
      rw [div_le_iff₀ (by positivity)]
      have : 0 ≤ Real.sqrt m.fftSize * (nrm m.fftSize (seqC ys) + 1) := by positivity
      nlinarith
    nlinarith
  obtain ⟨t, us, ht, htl, htv, hte⟩ := inverse1d_acc hZv hzl h1 h40 hs (hZn.trans (by
    have : (1 : ℝ) ≤ 2 ^ 100 := one_le_pow₀ (by norm_num)
    calc 3 * Real.sqrt m.fftSize * (nrm m.fftSize (seqC ys) + 1) ≤ 3 * 2 ^ 20 * (2 * 2 ^ 100) := by
          refine mul_le_mul (mul_le_mul_of_nonneg_left hrb (by norm_num)) (by linarith) (by linarith) (by norm_num)
      _ ≤ 2 ^ 130 := by norm_num))
  refine ⟨t, us, ht, by omega, htv, ?_⟩
  rw [← hl] at hte
  refine (nrm_triangle _ (seqC us) (fun n => (((dft m.fftSize 1 Z n).re / m.fftSize : ℝ) : ℂ)) _).trans ?_
  have f2 : nrm s.length (fun n => (((dft m.fftSize 1 Z n).re / m.fftSize : ℝ) : ℂ) - ((hilb s.length m.fftSize (seqC ys) n : ℝ) : ℂ)) ≤
      9 / 4 * (nrm m.fftSize (seqC ys) + 1) / 2 ^ 40 := by
    have f3 : nrm s.length (fun n => (((dft m.fftSize 1 Z n).re / m.fftSize : ℝ) : ℂ) - ((hilb s.length m.fftSize (seqC ys) n : ℝ) : ℂ)) ≤
        1 / m.fftSize * nrm m.fftSize (dft m.fftSize 1 (fun k => Z k - wt s.length m.fftSize k * dft m.fftSize (-1) (seqC ys) k)) := by
      refine (nrm_mono_len _ (hl ▸ hs)).trans (nrm_le_mul (by positivity) fun n _ => ?_)
      rw [← Complex.ofReal_sub, Complex.norm_real, Real.norm_eq_abs]
      unfold hilb
      rw [← sub_div, abs_div, abs_of_nonneg (by linarith : (0 : ℝ) ≤ m.fftSize), div_eq_mul_one_div, mul_comm, ← Complex.sub_re, ← dft_sub]
      exact mul_le_mul_of_nonneg_left (Complex.abs_re_le_norm _) (by positivity)
    rw [parseval_inv (by omega)] at f3
    refine f3.trans ?_
    calc 1 / (m.fftSize : ℝ) * (Real.sqrt m.fftSize * nrm m.fftSize _)
        ≤ 1 / m.fftSize * (Real.sqrt m.fftSize * (9 / 4 * Real.sqrt m.fftSize * (nrm m.fftSize (seqC ys) + 1) / 2 ^ 40)) :=
          mul_le_mul_of_nonneg_left (mul_le_mul_of_nonneg_left hd (by linarith)) (by positivity)
      _ = 1 / m.fftSize * (Real.sqrt m.fftSize * Real.sqrt m.fftSize) * (9 / 4 * (nrm m.fftSize (seqC ys) + 1) / 2 ^ 40) := by ring
      _ = 9 / 4 * (nrm m.fftSize (seqC ys) + 1) / 2 ^ 40 := by rw [hsq]; field_simp
  have f1 : 9 / 8 * (nrm m.fftSize Z + 1) / (2 ^ 40 * Real.sqrt m.fftSize) ≤ 9 / 2 * (nrm m.fftSize (seqC ys) + 1) / 2 ^ 40 := by
    rw [div_le_div_iff₀ (by positivity) (by positivity)]
    have : nrm m.fftSize Z + 1 ≤ 4 * (Real.sqrt m.fftSize * (nrm m.fftSize (seqC ys) + 1)) := by nlinarith
    nlinarith
  refine (add_le_add (hte.trans f1) f2).trans ?_
  generalize nrm m.fftSize (seqC ys) = A at *
  rw [← add_div]
  refine div_le_div_of_nonneg_right ?_ (by positivity)
  linarith

end Visqol
