import Verif.Lemmas.Shape
import Verif.Num.Dft
import Verif.Spec.Stats
import Mathlib.Analysis.SpecialFunctions.Exponential
import Mathlib.Analysis.Complex.ExponentialBounds

/-! # From similarity to quality in wideband mode: C03, C04 -/

set_option linter.unusedSectionVars false

namespace Visqol

-- Literals below are those of the real numbers, not the model's.
attribute [-instance] Flt.toOfScientific

/-- The wideband quality as a function of the mean similarity. -/
theorem speechQuality_real (s : Bool) (v : List ℝ) : speechQuality s v =
    max 1 (min 5 ((1.1559455 + Real.exp (4.6851153 * (mean v - 0.7655232))) * (if s then 1.2031409 else 1))) := by
  unfold speechQuality exponentialFromFit
  have h5 : (@OfScientific.ofScientific ℝ Flt.toOfScientific 50 true 1) = 5 := by rw [real_sci]; norm_num
  rw [h5, real_lit1, real_clamp _ _ _ (by norm_num)]
  simp only [real_iterSum, real_exp, real_ofNat, real_sci, real_lit1, mean]

theorem meanOpt_real {l : List ℝ} {x : ℝ} (h : meanOpt l = some x) : x = mean l ∧ l ≠ [] := by
  unfold meanOpt at h
  split at h
  · cases h
  · cases h; exact ⟨rfl, ‹_›⟩

/-- The reported wideband MOS as a function of the reported `vnsim`. -/
noncomputable def widebandMos (s : Bool) (x : ℝ) : ℝ :=
  if x < 0.15 then 1
  else max 1 (min 5 ((1.1559455 + Real.exp (4.6851153 * (x - 0.7655232))) * (if s then 1.2031409 else 1)))

theorem moslqo_eq {p : Profile} {s : Bool} {m m' : Manager ℝ} {ref deg : AudioSignal ℝ} {res : SimilarityResult ℝ}
    (hm : m.mapper = .speech s) (h : m.computeResults p ref deg = .ok (m', res)) : res.moslqo = widebandMos s res.vnsim := by
  obtain ⟨al, lag, _, ⟨st⟩⟩ := computeResults_stages h
  obtain ⟨q, h1, h2⟩ := st.mos
  obtain ⟨h3, _⟩ := meanOpt_real st.vn
  rw [hm] at h1
  cases h1
  rw [h2]
  unfold alterForSimilarityExtremes widebandMos
  have h15 : (@OfScientific.ofScientific ℝ Flt.toOfScientific 15 true 2) = 0.15 := rfl
  rw [speechQuality_real, ← h3, h15]
  simp only [real_lt, decide_eq_true_eq, real_lit1]

theorem widebandMos_mono (s : Bool) {x y : ℝ} (h : x ≤ y) : widebandMos s x ≤ widebandMos s y := by
  unfold widebandMos
  split
  · split
    · exact le_refl _
    · exact le_max_left _ _
  · rename_i hx
    rw [if_neg (show ¬ y < 0.15 by linarith)]
    have := Real.exp_le_exp.mpr (show 4.6851153 * (x - 0.7655232) ≤ 4.6851153 * (y - 0.7655232) by nlinarith)
    refine max_le_max le_rfl (min_le_min le_rfl (mul_le_mul_of_nonneg_right (by linarith) ?_))
    split <;> norm_num

/-- C03, monotone: of two wideband results with the same scaling option, the one with the larger `vnsim` does not have the
smaller MOS. -/
theorem C03_monotone {p₁ p₂ : Profile} {s : Bool} {m₁ m₁' m₂ m₂' : Manager ℝ} {ref₁ deg₁ ref₂ deg₂ : AudioSignal ℝ}
    {r₁ r₂ : SimilarityResult ℝ} (hm₁ : m₁.mapper = .speech s) (hm₂ : m₂.mapper = .speech s)
    (h₁ : m₁.computeResults p₁ ref₁ deg₁ = .ok (m₁', r₁)) (h₂ : m₂.computeResults p₂ ref₂ deg₂ = .ok (m₂', r₂))
    (h : r₁.vnsim ≤ r₂.vnsim) : r₁.moslqo ≤ r₂.moslqo := by
  rw [moslqo_eq hm₁ h₁, moslqo_eq hm₂ h₂]
  exact widebandMos_mono s h

/-- C03, scaling: with equal similarity the scaled MOS is not below the unscaled one. -/
theorem C03_scaled {p₁ p₂ : Profile} {m₁ m₁' m₂ m₂' : Manager ℝ} {ref₁ deg₁ ref₂ deg₂ : AudioSignal ℝ}
    {r₁ r₂ : SimilarityResult ℝ} (hm₁ : m₁.mapper = .speech false) (hm₂ : m₂.mapper = .speech true)
    (h₁ : m₁.computeResults p₁ ref₁ deg₁ = .ok (m₁', r₁)) (h₂ : m₂.computeResults p₂ ref₂ deg₂ = .ok (m₂', r₂))
    (h : r₁.vnsim = r₂.vnsim) : r₁.moslqo ≤ r₂.moslqo := by
  rw [moslqo_eq hm₁ h₁, moslqo_eq hm₂ h₂, h]
  unfold widebandMos
  split
  · exact le_refl _
  · have := Real.exp_pos (4.6851153 * (r₂.vnsim - 0.7655232))
    exact max_le_max le_rfl (min_le_min le_rfl (mul_le_mul_of_nonneg_left (by norm_num) (by linarith)))

/-- C03, the mapping alone: on vectors of any lengths. -/
theorem C03_mapping (s : Bool) {v w : List ℝ} (h : mean v ≤ mean w) : speechQuality s v ≤ speechQuality s w := by
  rw [speechQuality_real, speechQuality_real]
  have := Real.exp_le_exp.mpr (show 4.6851153 * (mean v - 0.7655232) ≤ 4.6851153 * (mean w - 0.7655232) by nlinarith)
  refine max_le_max le_rfl (min_le_min le_rfl (mul_le_mul_of_nonneg_right (by linarith) ?_))
  split <;> norm_num

/-- C03, the mapping alone: scaling never lowers. -/
theorem C03_mapping_scaled (v : List ℝ) : speechQuality false v ≤ speechQuality true v := by
  rw [speechQuality_real, speechQuality_real]
  have := Real.exp_pos (4.6851153 * (mean v - 0.7655232))
  exact max_le_max le_rfl (min_le_min le_rfl (mul_le_mul_of_nonneg_left (by norm_num) (by linarith)))

example : mean [0.2, 0.4] ≤ mean [0.5] := by unfold mean; norm_num

/-! ## The value at 1 -/

theorem exp_fit_bounds : 2.9998 < Real.exp (4.6851153 * (1 - 0.7655232)) ∧ Real.exp (4.6851153 * (1 - 0.7655232)) < 2.9999 := by
  have e : (4.6851153 * (1 - 0.7655232) : ℝ) = 1 + 0.09855084317504 := by norm_num
  have h1 := Real.exp_one_gt_d9
  have h2 := Real.exp_one_lt_d9
  have h0 := Real.exp_pos (0.09855084317504 : ℝ)
  have h3 : (1.10357 : ℝ) ≤ Real.exp 0.09855084317504 := by
    have := Real.sum_le_exp_of_nonneg (x := 0.09855084317504) (by norm_num) 5
    refine le_trans ?_ this
    norm_num [Finset.sum_range_succ, Nat.factorial]
  have h4 : Real.exp (0.09855084317504 : ℝ) ≤ 1.10358 := by
    have := Real.exp_bound' (x := 0.09855084317504) (by norm_num) (by norm_num) (n := 5) (by norm_num)
    refine le_trans this ?_
    norm_num [Finset.sum_range_succ, Nat.factorial]
  rw [e, Real.exp_add]
  constructor <;> nlinarith

/-- C04, scaled: a similarity vector of ones, of any length, gives a MOS between 4.999 and 5. -/
theorem C04_scaled {n : ℕ} (hn : 0 < n) :
    4.999 ≤ speechQuality true (List.replicate n (1 : ℝ)) ∧ speechQuality true (List.replicate n (1 : ℝ)) ≤ 5 := by
  have hm : mean (List.replicate n (1 : ℝ)) = 1 := by
    have : (n : ℝ) ≠ 0 := by positivity
    simp [mean, this]
  rw [speechQuality_real, hm]
  obtain ⟨h1, h2⟩ := exp_fit_bounds
  generalize Real.exp (4.6851153 * (1 - 0.7655232)) = e at *
  simp only [if_true]
  refine ⟨le_max_of_le_right (le_min (by norm_num) (by nlinarith)), max_le (by norm_num) (min_le_left _ _)⟩

/-- C04, unscaled: it gives a MOS between 4.155 and 4.156. -/
theorem C04_unscaled {n : ℕ} (hn : 0 < n) :
    4.155 ≤ speechQuality false (List.replicate n (1 : ℝ)) ∧ speechQuality false (List.replicate n (1 : ℝ)) ≤ 4.156 := by
  have hm : mean (List.replicate n (1 : ℝ)) = 1 := by
    have : (n : ℝ) ≠ 0 := by positivity
    simp [mean, this]
  rw [speechQuality_real, hm]
  obtain ⟨h1, h2⟩ := exp_fit_bounds
  generalize Real.exp (4.6851153 * (1 - 0.7655232)) = e at *
  simp only [Bool.false_eq_true, if_false, mul_one]
  refine ⟨le_max_of_le_right (le_min (by norm_num) (by linarith)), max_le (by norm_num) (le_trans (min_le_right _ _) (by linarith))⟩

/-- C04, results: a comparison that reports `vnsim` 1 reports these MOS values. -/
theorem C04_result {p : Profile} {s : Bool} {m m' : Manager ℝ} {ref deg : AudioSignal ℝ} {res : SimilarityResult ℝ}
    (hm : m.mapper = .speech s) (h : m.computeResults p ref deg = .ok (m', res)) (h1 : res.vnsim = 1) :
    if s then 4.999 ≤ res.moslqo ∧ res.moslqo ≤ 5 else 4.155 ≤ res.moslqo ∧ res.moslqo ≤ 4.156 := by
  rw [moslqo_eq hm h, h1]
  unfold widebandMos
  rw [if_neg (show ¬ (1 : ℝ) < 0.15 by norm_num)]
  have hm : mean (List.replicate 1 (1 : ℝ)) = 1 := by simp [mean]
  have h2 := speechQuality_real s (List.replicate 1 1)
  rw [hm] at h2
  rw [← h2]
  cases s
  · simpa using C04_unscaled (n := 1) (by norm_num)
  · simpa using C04_scaled (n := 1) (by norm_num)

end Visqol
