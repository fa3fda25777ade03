import Verif.Props.Filter
import Verif.Spec.Gammatone
import Mathlib.Analysis.SpecificLimits.Basic
import Mathlib.Analysis.SpecificLimits.Normed

/-! # Steady state of a second-order section -/

namespace Visqol
open Filter Topology

/-- A stable one-pole recursion driven by a vanishing input vanishes. -/
theorem onepole_tendsto {p : ℂ} (hp : ‖p‖ < 1) {e d : ℕ → ℂ} (h : ∀ n, e (n + 1) = p * e n + d n)
    (hd : Tendsto d atTop (𝓝 0)) : Tendsto e atTop (𝓝 0) := by
  rw [Metric.tendsto_atTop] at hd ⊢
  intro ε hε
  obtain ⟨M, hM⟩ := hd (ε * (1 - ‖p‖) / 2) (by have : 0 < 1 - ‖p‖ := by linarith
                                               positivity)
  have key : ∀ k, ‖e (M + k)‖ ≤ ‖p‖ ^ k * ‖e M‖ + ε / 2 := by
    intro k
    induction k with
    | zero => simp; linarith
    | succ k ih =>
      have h1 : ‖e (M + (k + 1))‖ ≤ ‖p‖ * ‖e (M + k)‖ + ‖d (M + k)‖ := by
        rw [← add_assoc, h, ← norm_mul]; exact norm_add_le _ _
      have h2 : ‖d (M + k)‖ < ε * (1 - ‖p‖) / 2 := by simpa [dist_zero_right] using hM (M + k) (by omega)
      have h3 := mul_le_mul_of_nonneg_left ih (norm_nonneg p)
      rw [pow_succ]
      nlinarith [h1, h2, h3]
  have hz : Tendsto (fun k : ℕ => ‖p‖ ^ k * ‖e M‖) atTop (𝓝 0) := by
    simpa using (tendsto_pow_atTop_nhds_zero_of_lt_one (norm_nonneg p) hp).mul_const ‖e M‖
  rw [Metric.tendsto_atTop] at hz
  obtain ⟨K, hK⟩ := hz (ε / 2) (by linarith)
  refine ⟨M + K, fun n hn => ?_⟩
  obtain ⟨k, rfl⟩ := Nat.exists_eq_add_of_le hn
  have h1 := key (K + k)
  have h2 := hK (K + k) (by omega)
  rw [Real.dist_eq, sub_zero, abs_of_nonneg (by positivity)] at h2
  rw [dist_zero_right, add_assoc]
  linarith

/-- A section whose poles lie inside the unit circle forgets: driven by a vanishing input it vanishes. -/
theorem section_tendsto {p q : ℂ} (hp : ‖p‖ < 1) (hq : ‖q‖ < 1) {e d : ℕ → ℂ}
    (h : ∀ n, e (n + 2) = (p + q) * e (n + 1) - p * q * e n + d n) (hd : Tendsto d atTop (𝓝 0)) : Tendsto e atTop (𝓝 0) := by
  have hu : Tendsto (fun n => e (n + 1) - p * e n) atTop (𝓝 0) :=
    onepole_tendsto hq (fun n => by show e (n + 1 + 1) - p * e (n + 1) = _; rw [h n]; ring) hd
  exact onepole_tendsto hp (fun n => by ring) hu

/-- On longer and longer prefixes of a sequence, a section produces longer and longer prefixes of one output sequence. -/
theorem filter_seq (num den : Taps ℝ) (u : ℕ → ℝ) : ∃ v : ℕ → ℝ,
    (∀ N, (filterSignal num den ((List.range N).map u) (0, 0)).1 = (List.range N).map v) ∧
    ∀ n, v (n + 2) = num.c0 * u (n + 2) + num.c1 * u (n + 1) + num.c2 * u n - den.c1 * v (n + 1) - den.c2 * v n := by
  let v : ℕ → ℝ := fun n => sampleAt (filterSignal num den ((List.range (n + 1)).map u) (0, 0)).1 n
  have hv : ∀ N n, n < N → sampleAt (filterSignal num den ((List.range N).map u) (0, 0)).1 n = v n := by
    intro N n hn
    have hc := C44_causal num den ((List.range N).map u) ((List.range (n + 1)).map u) (0, 0) (n + 1) (by
      rw [← List.map_take, ← List.map_take, List.take_range, List.take_range]; congr 2; omega)
    have := congrArg (fun l => l[n]?) hc
    simp only [List.getElem?_take_of_lt (Nat.lt_succ_self n)] at this
    simp [v, sampleAt, List.getD_eq_getElem?_getD, this]
  have hs : ∀ N n, n < N → sampleAt ((List.range N).map u) n = u n := by
    intro N n hn; simp [sampleAt, List.getD_eq_getElem?_getD, hn]
  refine ⟨v, fun N => ?_, fun n => ?_⟩
  · apply List.ext_getElem
    · rw [C44_length]; simp
    · intro i h1 h2
      have := hv N i (by simpa using h2)
      simpa [sampleAt, List.getD_eq_getElem?_getD, h1] using this
  · have h := (C44_biquad num den ((List.range (n + 3)).map u)).2 ((n + 2 : ℕ) : ℤ) (by omega) (by simp)
    have e1 : ((n + 2 : ℕ) : ℤ) - 1 = ((n + 1 : ℕ) : ℤ) := by push_cast; ring
    have e2 : ((n + 2 : ℕ) : ℤ) - 2 = (n : ℤ) := by push_cast; ring
    rw [e1, e2, hv _ _ (by omega), hv _ _ (by omega), hv _ _ (by omega), hs _ _ (by omega), hs _ _ (by omega), hs _ _ (by omega)] at h
    exact h

/-- A sequence that settles to the tone with complex amplitude `a`. -/
def Settles (w a : ℂ) (u : ℕ → ℝ) : Prop := Tendsto (fun n => u n - (a * w ^ n).re) atTop (𝓝 0)

/-- A stable section turns a settling sequence into one that settles to the tone multiplied by the transfer function. -/
theorem Settles.section {w a p q : ℂ} {u v : ℕ → ℝ} {b0 b1 b2 a1 a2 : ℝ} (hp : ‖p‖ < 1) (hq : ‖q‖ < 1)
    (h1 : (a1 : ℂ) = -(p + q)) (h2 : (a2 : ℂ) = p * q) (hw : ‖w‖ = 1) (hu : Settles w a u)
    (hv : ∀ n, v (n + 2) = b0 * u (n + 2) + b1 * u (n + 1) + b2 * u n - a1 * v (n + 1) - a2 * v n) :
    Settles w (a * Spec.transfer b0 b1 b2 a1 a2 w) v := by
  have hD : w ^ 2 + a1 * w + a2 ≠ 0 := by
    rw [h1, h2, show w ^ 2 + -(p + q) * w + p * q = (w - p) * (w - q) by ring]
    refine mul_ne_zero (fun h => ?_) (fun h => ?_)
    · rw [sub_eq_zero.mp h] at hw; linarith
    · rw [sub_eq_zero.mp h] at hw; linarith
  have hH : Spec.transfer b0 b1 b2 a1 a2 w * (w ^ 2 + a1 * w + a2) = b0 * w ^ 2 + b1 * w + b2 := div_mul_cancel₀ _ hD
  generalize Spec.transfer b0 b1 b2 a1 a2 w = H at hH ⊢
  unfold Settles at hu ⊢
  set x : ℕ → ℝ := fun n => u n - (a * w ^ n).re with hx
  have hd : Tendsto (fun n => b0 * x (n + 2) + b1 * x (n + 1) + b2 * x n) atTop (𝓝 0) := by
    have t1 := hu.comp (tendsto_add_atTop_nat 1)
    have t2 := hu.comp (tendsto_add_atTop_nat 2)
    simpa using ((t2.const_mul b0).add (t1.const_mul b1)).add (hu.const_mul b2)
  have hdc : Tendsto (fun n => ((b0 * x (n + 2) + b1 * x (n + 1) + b2 * x n : ℝ) : ℂ)) atTop (𝓝 0) := by
    have := (Complex.continuous_ofReal.tendsto 0).comp hd
    rw [Complex.ofReal_zero] at this
    exact this
  have key : ∀ n, (((v (n + 2) - (a * H * w ^ (n + 2)).re : ℝ)) : ℂ) = (p + q) * ((v (n + 1) - (a * H * w ^ (n + 1)).re : ℝ) : ℂ)
      - p * q * ((v n - (a * H * w ^ n).re : ℝ) : ℂ) + ((b0 * x (n + 2) + b1 * x (n + 1) + b2 * x n : ℝ) : ℂ) := by
    intro n
    have e : (p + q) = -(a1 : ℂ) := by rw [h1]; ring
    rw [e, ← h2]
    have hre : (a * H * w ^ (n + 2)).re + a1 * (a * H * w ^ (n + 1)).re + a2 * (a * H * w ^ n).re =
        b0 * (a * w ^ (n + 2)).re + b1 * (a * w ^ (n + 1)).re + b2 * (a * w ^ n).re := by
      have : a * H * w ^ (n + 2) + a1 * (a * H * w ^ (n + 1)) + a2 * (a * H * w ^ n) =
          b0 * (a * w ^ (n + 2)) + b1 * (a * w ^ (n + 1)) + b2 * (a * w ^ n) := by
        linear_combination a * w ^ n * hH
      have := congrArg Complex.re this
      simpa only [Complex.add_re, Complex.re_ofReal_mul] using this
    norm_cast
    rw [hv n, hx]
    linear_combination -hre
  have := section_tendsto (e := fun n => ((v n - (a * H * w ^ n).re : ℝ) : ℂ)) hp hq key hdc
  have := (Complex.continuous_re.tendsto 0).comp this
  rw [Complex.zero_re] at this
  exact this

end Visqol
