import Verif.Props.LevelRounded
import Verif.Props.TrailingSilence

/-! # Silence at the end of the degraded file raises its level in floating point (C98) -/

namespace Visqol
open Ieee

section
variable {F : Type} [Flt F] [Ieee F] [Libm F]

theorem padded_getD (s : AudioSignal F) (k i : ℕ) : ((s.data ++ List.replicate k 0.0).map number).getD i 0 = (s.data.map number).getD i 0 := by
  have n0 : number (0.0 : F) = 0 := number_of val_0
  rw [List.map_append, List.map_replicate, n0]
  by_cases hi : i < (s.data.map number).length
  · rw [List.getD_append _ _ _ _ hi]
  · rw [List.getD_append_right _ _ _ _ (by omega), List.getD_eq_default (s.data.map number) _ (by omega)]
    simp only [List.getD_eq_getElem?_getD, List.getElem?_replicate]
    split <;> rfl

/-- C98, floating point: with `k` zeros appended to the `n` samples of the degraded signal, level matching makes each of them louder by the
factor `√((n + k) / n)`, up to a relative error of `2⁻³³ + (number of samples) / 2⁴⁶`. -/
theorem C98_gain_rounded {ref deg : AudioSignal F} (k : ℕ) (hr : OrdinarySamples ref) (hd : OrdinarySamples deg) (hrs : SoundFrom 0 ref)
    (hds : SoundFrom 0 deg) (hrl : ref.data.length ≤ 2 ^ 31) (hdl : deg.data.length + k ≤ 2 ^ 31) (i : ℕ) :
    |((scaleToMatchSpl ref ⟨deg.data ++ List.replicate k 0.0, deg.sampleRate⟩).data.map number).getD i 0 -
        Real.sqrt ((deg.data.length + k) / deg.data.length) * ((scaleToMatchSpl ref deg).data.map number).getD i 0| ≤
      ((ref.data.length + (deg.data.length + k) : ℕ) / 2 ^ 46 + 1 / 2 ^ 33) *
        |Real.sqrt ((deg.data.length + k) / deg.data.length) * ((scaleToMatchSpl ref deg).data.map number).getD i 0| + 1 / 2 ^ 900 := by
  have hds' := sound_loud hds
  have hne : deg.data ≠ [] := List.ne_nil_of_mem hds'.choose_spec.1
  have hn : 0 < deg.data.length := List.length_pos_iff.mpr hne
  have n0 : number (0.0 : F) = 0 := number_of val_0
  have hl2 : (deg.data ++ List.replicate k (0.0 : F)).length = deg.data.length + k := by simp
  have hd2 : OrdinarySamples (⟨deg.data ++ List.replicate k 0.0, deg.sampleRate⟩ : AudioSignal F) := by
    intro a ha
    rcases List.mem_append.mp ha with ha | ha
    · exact hd a ha
    · rw [(List.mem_replicate.mp ha).2]; exact ⟨0, val_0, by norm_num⟩
  have hds2 : SoundFrom 0 (⟨deg.data ++ List.replicate k 0.0, deg.sampleRate⟩ : AudioSignal F) := by
    obtain ⟨a, ha, x, hx, hb⟩ := hds
    refine ⟨a, ?_, x, hx, hb⟩
    simp only [List.drop_zero] at ha ⊢
    exact List.mem_append_left _ ha
  have hdl' : deg.data.length ≤ 2 ^ 31 := by omega
  obtain ⟨_, g, hg, hgu, h2, h3⟩ := matched_samples hr hd hrs hds hrl hdl'
  obtain ⟨_, g', hg', hgu', h2', h3'⟩ := matched_samples hr hd2 hrs hds2 hrl (by rw [hl2]; exact hdl)
  have h3i := h3 i
  have h3i' := h3' i
  rw [padded_getD] at h3i'
  simp only [hl2] at h2'
  have er := rms_padded (deg.data.map number) k (by simpa using hn)
  have er' : (deg.data ++ List.replicate k (0.0 : F)).map number = deg.data.map number ++ List.replicate k 0 := by simp [n0]
  rw [er'] at h2'
  rw [List.length_map] at er
  obtain ⟨t0, t1⟩ := levelTol_le hrl hdl
  have hlow : 1 / 2 ^ 35 ≤ levelTol ref.data.length (deg.data.length + k) := by
    unfold levelTol
    have : (0 : ℝ) ≤ (ref.data.length + (deg.data.length + k) : ℕ) / 2 ^ 48 := by positivity
    linarith
  have hmono : levelTol ref.data.length deg.data.length ≤ levelTol ref.data.length (deg.data.length + k) := by
    unfold levelTol
    gcongr
    omega
  have e : ((ref.data.length + (deg.data.length + k) : ℕ) / 2 ^ 46 + 1 / 2 ^ 33 : ℝ) = 4 * levelTol ref.data.length (deg.data.length + k) := by
    unfold levelTol; ring
  rw [e]
  have hb1 := (boost_one (k := k) hn).1
  have hb2 : boost deg.data.length k ≤ 2 ^ 16 := by
    unfold boost
    rw [Real.sqrt_le_left (by norm_num), div_le_iff₀ (by exact_mod_cast hn)]
    have h1 : ((deg.data.length : ℝ) + k) ≤ 2 ^ 31 := by exact_mod_cast hdl
    have h2 : (1 : ℝ) ≤ deg.data.length := by exact_mod_cast hn
    nlinarith
  change |_ - boost deg.data.length k * _| ≤ _ * |boost deg.data.length k * _| + _
  obtain ⟨R1, _⟩ := rms_size (ordinary_pw hd) hdl' hds'
  have hRp : 0 < rms (deg.data.map number) := lt_of_lt_of_le (by positivity) R1
  have hrn : 0 ≤ rms (ref.data.map number) := rms_nonneg _
  have h900 : (2 : ℝ) ^ 70 * (1 / 2 ^ 1000) ≤ 1 / 2 ^ 900 := by
    rw [mul_one_div, div_le_div_iff₀ (by positivity) (by positivity), ← pow_add, one_mul]
    exact two_pow_mono (by norm_num)
  have htiny0 : (0 : ℝ) ≤ 1 / 2 ^ 1000 := by positivity
  clear R1 e er' hd2 hds2 hl2 h3 h3' hr hd hrs hds hds' hne n0 hrl hdl hdl' hgu hgu'
  generalize ((scaleToMatchSpl ref ⟨deg.data ++ List.replicate k 0.0, deg.sampleRate⟩).data.map number).getD i 0 = z' at *
  generalize ((scaleToMatchSpl ref deg).data.map number).getD i 0 = z at *
  generalize (deg.data.map number).getD i 0 = x at *
  generalize levelTol ref.data.length (deg.data.length + k) = τ at *
  generalize levelTol ref.data.length deg.data.length = σ at *
  generalize rms (deg.data.map number ++ List.replicate k 0) = R' at *
  generalize rms (deg.data.map number) = R at *
  generalize rms (ref.data.map number) = M at *
  generalize boost deg.data.length k = b at *
  generalize (1 : ℝ) / 2 ^ 900 = T at *
  generalize (1 : ℝ) / 2 ^ 1000 = t at *
  have hb0 : 0 < b := by linarith
  subst er
  have hR' : 0 < R' := pos_of_mul_pos_right hRp hb0.le
  -- the gains
  have h2b : |g * (b * R') - M| ≤ τ * M := h2.trans (mul_le_mul_of_nonneg_right hmono hrn)
  have hM : M ≤ 1001 / 1000 * (g * (b * R')) := by
    have := (abs_le.mp h2b).1
    have h4 : τ * M ≤ 1 / 2 ^ 14 * M := mul_le_mul_of_nonneg_right t1 hrn
    norm_num at h4
    linarith
  have hgb : |g' - g * b| ≤ 2002 / 1000 * τ * (g * b) := by
    have h4 : |(g' - g * b) * R'| ≤ 2002 / 1000 * τ * (g * b) * R' := by
      have e1 : (g' - g * b) * R' = (g' * R' - M) - (g * (b * R') - M) := by ring
      rw [e1]
      refine (abs_sub _ _).trans ?_
      have h5 := mul_le_mul_of_nonneg_left hM t0
      linarith
    rw [abs_mul, abs_of_pos hR'] at h4
    exact le_of_mul_le_mul_right h4 hR'
  have hgb0 : 0 < g * b := mul_pos hg hb0
  have hg2 : g' ≤ 2 * (g * b) := by
    have := (abs_le.mp hgb).2
    have h4 : 2002 / 1000 * τ * (g * b) ≤ 1 / 2 * (g * b) := by
      refine mul_le_mul_of_nonneg_right ?_ hgb0.le
      norm_num at t1
      linarith
    linarith
  -- the sample
  have hx : g * |x| ≤ 1001 / 1000 * (|z| + t) := by
    have h4 : |g * x| ≤ |z| + |z - g * x| := by
      have := abs_sub_abs_le_abs_sub (g * x) z
      rw [abs_sub_comm] at this
      linarith
    rw [abs_mul, abs_of_pos hg] at h4
    have hgx : 0 ≤ g * |x| := by positivity
    generalize g * |x| = w at *
    norm_num at h3i
    linarith [abs_nonneg z]
  have s1 : |z' - b * z| ≤ |z' - g' * x| + |g' - g * b| * |x| + b * |z - g * x| := by
    have e1 : z' - b * z = (z' - g' * x) + (g' - g * b) * x + -(b * (z - g * x)) := by ring
    rw [e1, ← abs_mul]
    refine (abs_add_three _ _ _).trans ?_
    rw [abs_neg, abs_mul b, abs_of_pos hb0]
  have s2 : g' * |x| ≤ 2 * (b * (g * |x|)) := by
    have := mul_le_mul_of_nonneg_right hg2 (abs_nonneg x)
    linarith
  have s3 : |g' - g * b| * |x| ≤ 2002 / 1000 * τ * (b * (g * |x|)) := by
    have := mul_le_mul_of_nonneg_right hgb (abs_nonneg x)
    linarith
  have s4 := mul_le_mul_of_nonneg_left h3i hb0.le
  have s5 := mul_le_mul_of_nonneg_left hx hb0.le
  have s6 : b * t ≤ 2 ^ 16 * t := mul_le_mul_of_nonneg_right hb2 htiny0
  rw [abs_mul, abs_of_pos hb0]
  have s7 : τ * (b * (g * |x|)) ≤ τ * (1001 / 1000 * (b * (|z| + t))) := mul_le_mul_of_nonneg_left (by linarith) t0
  have s8 : 1 / 2 ^ 35 * (b * |z|) ≤ τ * (b * |z|) := mul_le_mul_of_nonneg_right hlow (by positivity)
  have s9 : τ * (b * t) ≤ 1 / 2 ^ 14 * (b * t) := mul_le_mul_of_nonneg_right t1 (by positivity)
  have s10 : 0 ≤ b * (g * |x|) := by positivity
  have s11 : 0 ≤ b * |z| := by positivity
  have s12 : 0 ≤ b * t := by positivity
  have k1 : b * (|z| + t) = b * |z| + b * t := by ring
  have k2 : τ * (1001 / 1000 * (b * (|z| + t))) = 1001 / 1000 * (τ * (b * |z|)) + 1001 / 1000 * (τ * (b * t)) := by ring
  have k3 : 2002 / 1000 * τ * (b * (g * |x|)) = 2002 / 1000 * (τ * (b * (g * |x|))) := by ring
  have k4 : b * (g * |x| / 2 ^ 52 + t) = b * (g * |x|) / 2 ^ 52 + b * t := by ring
  have k5 : b * (1001 / 1000 * (|z| + t)) = 1001 / 1000 * (b * |z|) + 1001 / 1000 * (b * t) := by ring
  have k6 : 4 * τ * (b * |z|) = 4 * (τ * (b * |z|)) := by ring
  have k7 : t ≤ b * t := le_mul_of_one_le_left htiny0 hb1
  rw [k2] at s7
  rw [k3] at s3
  rw [k4] at s4
  rw [k5] at s5
  rw [k6]
  clear hmono hM hgb hg2 hx h2 h2' h2b k2 k3 k4 k5 k6 k1 h3i hrn hR' hRp t1 hlow t0 hgb0 hb1 hb2 hg hg'
  generalize τ * (b * |z|) = A at *
  generalize τ * (b * (g * |x|)) = B at *
  generalize τ * (b * t) = C at *
  generalize b * (g * |x|) = D at *
  generalize b * |z| = E at *
  generalize b * t = G at *
  norm_num at *
  linarith

/-- The hypotheses of this: two samples with three zeros appended. -/
example : OrdinarySamples (⟨[0.0, 1.0], 48000⟩ : AudioSignal F) ∧ SoundFrom 0 (⟨[0.0, 1.0], 48000⟩ : AudioSignal F) ∧
    (⟨[0.0, 1.0], 48000⟩ : AudioSignal F).data.length + 3 ≤ 2 ^ 31 :=
  ⟨(short_ordinary 48000).1, (short_ordinary 48000).2, by norm_num⟩

end

end Visqol
