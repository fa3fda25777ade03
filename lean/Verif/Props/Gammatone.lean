import Verif.Lemmas.Gammatone
import Verif.Lemmas.Steady
import Verif.Props.Bands
import Verif.Lemmas.Total

/-! # The gammatone filters (C66) and the placement of the bands (C67) -/

namespace Visqol
open Filter Topology

/-- C66, coefficients: every section has its poles at radius `poleRadius` and angle `±radians`, numerator `1 / sr (z - zero)`
with the zeros of Slaney's factorisation. -/
theorem C66_coefficients {sr : ℕ} {f : ℝ} (h : 0 < f) (z : ℂ) :
    let c := bandCoeffs sr f
    let p := (Spec.poleRadius sr f : ℂ) * Complex.exp (Spec.radians sr f * Complex.I)
    let den := (z - p) * (z - (starRingEnd ℂ) p)
    z ^ 2 + c.b1 * z + c.b2 = den ∧
    c.a0 * z ^ 2 + c.a11 * z + c.a2 = z / sr * (z - Spec.zeroAt sr f (Real.sqrt (3 + 2 ^ (1.5 : ℝ)))) ∧
    c.a0 * z ^ 2 + c.a12 * z + c.a2 = z / sr * (z - Spec.zeroAt sr f (-Real.sqrt (3 + 2 ^ (1.5 : ℝ)))) ∧
    c.a0 * z ^ 2 + c.a13 * z + c.a2 = z / sr * (z - Spec.zeroAt sr f (Real.sqrt (3 - 2 ^ (1.5 : ℝ)))) ∧
    c.a0 * z ^ 2 + c.a14 * z + c.a2 = z / sr * (z - Spec.zeroAt sr f (-Real.sqrt (3 - 2 ^ (1.5 : ℝ)))) := by
  obtain ⟨e0, e2, f0, f1, f2, g1, g2, g3, g4⟩ := bandCoeffs_spec (sr := sr) h
  dsimp only at *
  rw [e0, e2, f1, f2, g1, g2, g3, g4]
  refine ⟨?_, ?_, ?_, ?_, ?_⟩
  · rw [map_mul, Complex.conj_ofReal, ← Complex.exp_conj, map_mul, Complex.conj_ofReal, Complex.conj_I,
      mul_neg, ← neg_mul, Complex.exp_mul_I, Complex.exp_mul_I, Complex.cos_neg, Complex.sin_neg]
    push_cast
    linear_combination ((Spec.poleRadius sr f : ℂ) ^ 2 * Complex.sin (Spec.radians sr f) ^ 2) * Complex.I_sq
      - (Spec.poleRadius sr f : ℂ) ^ 2 * Complex.sin_sq_add_cos_sq (Spec.radians sr f : ℂ)
  all_goals
    push_cast
    ring

theorem poleRadius_lt {sr : ℕ} (hs : 0 < sr) {f : ℝ} (h : 0 < f) : 0 < Spec.poleRadius sr f ∧ Spec.poleRadius sr f < 1 := by
  refine ⟨Real.exp_pos _, ?_⟩
  unfold Spec.poleRadius Spec.erb
  rw [← Real.exp_zero]
  apply Real.exp_lt_exp.mpr
  have : (0 : ℝ) < sr := by exact_mod_cast hs
  have := Real.pi_pos
  have : 0 < 2 * Real.pi * (1.019 * (f / 9.26449 + 24.7)) / sr := by positivity
  linarith

theorem gain_pos {sr : ℕ} {f : ℝ} (h0 : 0 < f) (h1 : f < sr / 2) :
    let c := bandCoeffs sr f
    let w := Complex.exp (Spec.radians sr f * Complex.I)
    w ^ 2 + c.b1 * w + c.b2 ≠ 0 ∧ c.a0 * w + c.a11 ≠ 0 ∧ c.a0 * w + c.a12 ≠ 0 ∧ c.a0 * w + c.a13 ≠ 0 ∧ c.a0 * w + c.a14 ≠ 0 := by
  have hs : (0 : ℝ) < sr := by linarith
  have hs' : 0 < sr := by exact_mod_cast hs
  intro c w
  have hw : ‖w‖ = 1 := Complex.norm_exp_ofReal_mul_I _
  refine ⟨fun h => ?_, ?_⟩
  · have := C45_stable hs' h0 w h
    linarith
  obtain ⟨e0, -⟩ := bandCoeffs_spec (sr := sr) h0
  have hi : w.im ≠ 0 := by
    rw [Complex.exp_ofReal_mul_I_im]
    refine (Real.sin_pos_of_pos_of_lt_pi ?_ ?_).ne'
    · unfold Spec.radians; have := Real.pi_pos; positivity
    · unfold Spec.radians
      rw [div_lt_iff₀ hs]
      nlinarith [Real.pi_pos]
  have key : ∀ t : ℝ, c.a0 * w + t ≠ 0 := by
    intro t h
    have := congrArg Complex.im h
    rw [Complex.add_im, Complex.im_ofReal_mul, Complex.ofReal_im, Complex.zero_im, add_zero] at this
    rcases mul_eq_zero.mp this with h | h
    · rw [show c.a0 = 1 / sr from e0] at h
      have : (1 : ℝ) / sr ≠ 0 := by positivity
      exact this h
    · exact hi h
  exact ⟨key _, key _, key _, key _⟩

/-- C66, response: at its own centre frequency the cascade of the four sections of a band has modulus one. -/
theorem C66_response {sr : ℕ} {f : ℝ} (h0 : 0 < f) (h1 : f < sr / 2) :
    let c := bandCoeffs sr f
    let w := Complex.exp (Spec.radians sr f * Complex.I)
    ‖Spec.transfer (c.a0 / c.gain) (c.a11 / c.gain) (c.a2 / c.gain) c.b1 c.b2 w * Spec.transfer c.a0 c.a12 c.a2 c.b1 c.b2 w *
      Spec.transfer c.a0 c.a13 c.a2 c.b1 c.b2 w * Spec.transfer c.a0 c.a14 c.a2 c.b1 c.b2 w‖ = 1 := by
  obtain ⟨hD, n1, n2, n3, n4⟩ := gain_pos h0 h1
  have hg := bandCoeffs_gain (sr := sr) h0
  obtain ⟨-, e2, -⟩ := bandCoeffs_spec (sr := sr) h0
  dsimp only at *
  have hw : ‖Complex.exp (Spec.radians sr f * Complex.I)‖ = 1 := Complex.norm_exp_ofReal_mul_I _
  generalize Complex.exp (Spec.radians sr f * Complex.I) = w at *
  generalize bandCoeffs sr f = c at *
  unfold Spec.transfer
  rw [e2]
  have d0 := norm_pos_iff.mpr hD
  have d1 := norm_pos_iff.mpr n1
  have d2 := norm_pos_iff.mpr n2
  have d3 := norm_pos_iff.mpr n3
  have d4 := norm_pos_iff.mpr n4
  have hG : 0 < c.gain := by rw [hg, norm_mul, norm_mul, norm_mul]; positivity
  have hGc : (c.gain : ℂ) ≠ 0 := by exact_mod_cast hG.ne'
  have e : ((c.a0 / c.gain : ℝ) : ℂ) * w ^ 2 + ((c.a11 / c.gain : ℝ) : ℂ) * w + ((0 / c.gain : ℝ) : ℂ) = w * (c.a0 * w + c.a11) / c.gain := by
    push_cast; field_simp; ring
  have e' : ∀ t : ℝ, (c.a0 : ℂ) * w ^ 2 + (t : ℂ) * w + ((0 : ℝ) : ℂ) = w * (c.a0 * w + t) := by
    intro t; push_cast; ring
  rw [e, e', e', e']
  simp only [norm_mul, norm_div, hw, one_mul, Complex.norm_real, Real.norm_of_nonneg hG.le]
  rw [norm_mul, norm_mul, norm_mul] at hg
  rw [hg]
  generalize ‖w ^ 2 + c.b1 * w + c.b2‖ = D at *
  generalize ‖(c.a0 : ℂ) * w + c.a11‖ = N1 at *
  generalize ‖(c.a0 : ℂ) * w + c.a12‖ = N2 at *
  generalize ‖(c.a0 : ℂ) * w + c.a13‖ = N3 at *
  generalize ‖(c.a0 : ℂ) * w + c.a14‖ = N4 at *
  field_simp

/-- C66, tones: a tone at the centre frequency of a band, of any amplitude and phase, leaves the freshly reset filters of that
band as a tone of the same frequency and amplitude, up to a transient that dies out. -/
theorem C66_tone {sr : ℕ} {f : ℝ} (h0 : 0 < f) (h1 : f < sr / 2) {nb band : ℕ} (hb : band < nb) {fb : FilterBank ℝ}
    (hc : fb.coeffs[band]? = some (bandCoeffs sr f)) (A ψ : ℝ) :
    ∃ φ : ℝ, ∀ ε > 0, ∃ n0 : ℕ, ∀ N : ℕ, ∃ fb' y,
      (fb.reset nb).applyBand band ((List.range N).map fun n : ℕ => A * Real.cos (2 * Real.pi * f / sr * n + ψ)) = .ok (fb', y) ∧
      y.length = N ∧ ∀ n, n0 ≤ n → n < N → |y.getD n 0 - A * Real.cos (2 * Real.pi * f / sr * n + φ)| < ε := by
  have hs : (0 : ℝ) < sr := by linarith
  have hs' : 0 < sr := by exact_mod_cast hs
  obtain ⟨hr0, hr1⟩ := poleRadius_lt hs' h0
  obtain ⟨-, -, -, f1, f2, -⟩ := bandCoeffs_spec (sr := sr) h0
  have hH := C66_response h0 h1
  dsimp only at *
  set c := bandCoeffs sr f
  set w := Complex.exp (Spec.radians sr f * Complex.I) with hw
  set p := (Spec.poleRadius sr f : ℂ) * w with hp
  set q := (starRingEnd ℂ) p with hq
  have nw : ‖w‖ = 1 := Complex.norm_exp_ofReal_mul_I _
  have np : ‖p‖ < 1 := by rw [hp, norm_mul, nw, mul_one, Complex.norm_real, Real.norm_of_nonneg hr0.le]; exact hr1
  have nq : ‖q‖ < 1 := by rw [hq, RCLike.norm_conj]; exact np
  have hb1 : (c.b1 : ℂ) = -(p + q) := by
    rw [hq, Complex.add_conj, f1, hp, Complex.re_ofReal_mul, Complex.exp_ofReal_mul_I_re]
    push_cast; ring
  have hb2 : (c.b2 : ℂ) = p * q := by
    rw [hq, Complex.mul_conj, Complex.normSq_eq_norm_sq, f2, hp, norm_mul, nw, mul_one, Complex.norm_real, Real.norm_of_nonneg hr0.le]
  let u : ℕ → ℝ := fun n => A * Real.cos (2 * Real.pi * f / sr * n + ψ)
  have tone : ∀ (b : ℝ) (n : ℕ), (A * Complex.exp (b * Complex.I) * w ^ n).re = A * Real.cos (2 * Real.pi * f / sr * n + b) := by
    intro b n
    rw [mul_assoc, Complex.re_ofReal_mul, ← Complex.exp_nat_mul, ← Complex.exp_add,
      show (b : ℂ) * Complex.I + n * (Spec.radians sr f * Complex.I) = ((2 * Real.pi * f / sr * n + b : ℝ) : ℂ) * Complex.I by
        unfold Spec.radians; push_cast; ring, Complex.exp_ofReal_mul_I_re]
  have hu : Settles w (A * Complex.exp (ψ * Complex.I)) u := by
    unfold Settles
    simp only [tone, u, sub_self]
    exact tendsto_const_nhds
  obtain ⟨v1, l1, r1⟩ := filter_seq ⟨c.a0 / c.gain, c.a11 / c.gain, c.a2 / c.gain⟩ ⟨c.b0, c.b1, c.b2⟩ u
  obtain ⟨v2, l2, r2⟩ := filter_seq ⟨c.a0, c.a12, c.a2⟩ ⟨c.b0, c.b1, c.b2⟩ v1
  obtain ⟨v3, l3, r3⟩ := filter_seq ⟨c.a0, c.a13, c.a2⟩ ⟨c.b0, c.b1, c.b2⟩ v2
  obtain ⟨v4, l4, r4⟩ := filter_seq ⟨c.a0, c.a14, c.a2⟩ ⟨c.b0, c.b1, c.b2⟩ v3
  have s := (((hu.section np nq hb1 hb2 nw r1).section np nq hb1 hb2 nw r2).section np nq hb1 hb2 nw r3).section np nq hb1 hb2 nw r4
  dsimp only at s
  rw [show ∀ a b c d e : ℂ, a * b * c * d * e = a * (b * c * d * e) by intros; ring] at s
  generalize Spec.transfer (c.a0 / c.gain) (c.a11 / c.gain) (c.a2 / c.gain) c.b1 c.b2 w * Spec.transfer c.a0 c.a12 c.a2 c.b1 c.b2 w *
      Spec.transfer c.a0 c.a13 c.a2 c.b1 c.b2 w * Spec.transfer c.a0 c.a14 c.a2 c.b1 c.b2 w = H at hH s
  have hHe : H = Complex.exp (Complex.arg H * Complex.I) := by
    have := Complex.norm_mul_exp_arg_mul_I H
    rw [hH] at this
    simpa using this.symm
  have s' : Settles w (A * Complex.exp (((ψ + Complex.arg H : ℝ) : ℂ) * Complex.I)) v4 := by
    convert s using 1
    conv_rhs => rw [hHe]
    rw [mul_assoc, ← Complex.exp_add]
    congr 2
    push_cast; ring
  unfold Settles at s'
  rw [Metric.tendsto_atTop] at s'
  refine ⟨ψ + Complex.arg H, fun ε hε => ?_⟩
  obtain ⟨n0, hn⟩ := s' ε hε
  refine ⟨n0, fun N => ?_⟩
  have hz : (List.replicate nb ((0 : ℝ), (0 : ℝ)))[band]? = some (0, 0) := by simp [hb]
  obtain ⟨fb', hfb⟩ : ∃ fb', (fb.reset nb).applyBand band ((List.range N).map u) = .ok (fb', (List.range N).map v4) := by
    unfold FilterBank.applyBand FilterBank.reset
    simp only [idx, hc, hz, ok_bind, real_lit0]
    rw [l1, l2, l3, l4]
    exact ⟨_, rfl⟩
  refine ⟨fb', (List.range N).map v4, hfb, by simp, fun n k1 k2 => ?_⟩
  · have := hn n k1
    rw [Real.dist_eq, sub_zero, tone] at this
    simpa [List.getD_eq_getElem?_getD, k2] using this

/-- The hypotheses of `C66_tone` are met by the filters of a 16 kHz file at 440 Hz. -/
example : ∃ fb : FilterBank ℝ, fb.coeffs[3]? = some (bandCoeffs 16000 440) ∧ (0 : ℝ) < 440 ∧ (440 : ℝ) < (16000 : ℕ) / 2 :=
  ⟨⟨50, [], [], [], [], List.replicate 21 (bandCoeffs 16000 440)⟩, by simp, by norm_num, by norm_num⟩

/-- C66 for a spectrogram: every row comes from sections (those of `C22_rows`) of modulus one at the reported frequency. -/
theorem C66_reported {nb : ℕ} {fb fb' : FilterBank ℝ} {s : AudioSignal ℝ} {w : AnalysisWindow ℝ} {sp : Spectrogram ℝ}
    (h : buildSpectrogram nb fb s w = .ok (fb', sp)) (h0 : 0 < fb.minFreq) (h1 : fb.minFreq < upperLimit nb s.sampleRate)
    {b : ℕ} {f : ℝ} (hb : sp.centerFreqBands[b]? = some f) :
    let c := bandCoeffs s.sampleRate f
    let w := Complex.exp (Spec.radians s.sampleRate f * Complex.I)
    ‖Spec.transfer (c.a0 / c.gain) (c.a11 / c.gain) (c.a2 / c.gain) c.b1 c.b2 w * Spec.transfer c.a0 c.a12 c.a2 c.b1 c.b2 w *
      Spec.transfer c.a0 c.a13 c.a2 c.b1 c.b2 w * Spec.transfer c.a0 c.a14 c.a2 c.b1 c.b2 w‖ = 1 := by
  obtain ⟨h2, h3⟩ := (C22_bands h h0.le h1).below f (List.mem_of_getElem? hb)
  exact C66_response (by linarith) (h3.trans_le (min_le_left _ _))

/-- C67: the reported centre frequencies are equally spaced on the ERB-number scale, from the lower limit upwards in steps of
one `nb`-th of the distance to the upper limit. -/
theorem C67_spacing {nb : ℕ} {fb fb' : FilterBank ℝ} {s : AudioSignal ℝ} {w : AnalysisWindow ℝ} {sp : Spectrogram ℝ}
    (h : buildSpectrogram nb fb s w = .ok (fb', sp)) (h0 : 0 ≤ fb.minFreq) (h1 : fb.minFreq < upperLimit nb s.sampleRate)
    {i : ℕ} (hi : i < nb) : ∃ f, sp.centerFreqBands[i]? = some f ∧
      Spec.erbNumber f = Spec.erbNumber fb.minFreq +
        i / nb * (Spec.erbNumber (upperLimit nb s.sampleRate) - Spec.erbNumber fb.minFreq) := by
  rw [bands_eq h0 h1 (buildSpectrogram_ok h).2.2.2.2]
  have hlen : (uniformCenterFreqs nb fb.minFreq (upperLimit nb s.sampleRate)).length = nb := by simp [uniformCenterFreqs]
  rw [List.getElem?_reverse (by omega), hlen, uniform_get (by omega), earQ_real, minBw_real]
  refine ⟨_, rfl, ?_⟩
  generalize fb.minFreq = lo at *
  generalize upperLimit nb s.sampleRate = hi' at *
  have hn : (0 : ℝ) < nb := by exact_mod_cast Nat.lt_of_le_of_lt (Nat.zero_le i) hi
  have e : ((nb - 1 - i : ℕ) : ℝ) + 1 = nb - i := by
    rw [Nat.sub_sub, Nat.cast_sub (by omega)]; push_cast; ring
  rw [e]
  have hk : (0 : ℝ) < 9.26449 * 24.7 := by norm_num
  unfold Spec.erbNumber
  generalize (9.26449 * 24.7 : ℝ) = k at *
  have hlog : ∀ x : ℝ, 0 < x + k → Real.log (1 + x / k) = Real.log (x + k) - Real.log k := by
    intro x hx
    rw [← Real.log_div hx.ne' hk.ne']
    congr 1
    field_simp
    ring
  rw [hlog lo (by linarith), hlog hi' (by linarith), hlog]
  · rw [neg_add_cancel_comm, Real.log_mul (Real.exp_pos _).ne' (by linarith), Real.log_exp]
    field_simp
    ring
  · have : 0 < hi' + k := by linarith
    have := mul_pos (Real.exp_pos ((nb - i) * ((Real.log (lo + k) - Real.log (hi' + k)) / nb))) this
    linarith

/-- The hypotheses of `C66_reported` and `C67_spacing` are met by every signal of at least 1280 samples at 16 kHz. -/
example (x : List ℝ) (hx : 1280 ≤ x.length) : ∃ (fb fb' : FilterBank ℝ) (sp : Spectrogram ℝ),
    buildSpectrogram 21 fb ⟨x, 16000⟩ ⟨1280, 1 / 4⟩ = .ok (fb', sp) ∧ 0 < fb.minFreq ∧ fb.minFreq < upperLimit 21 16000 := by
  have hh : (⟨1280, 1 / 4⟩ : AnalysisWindow ℝ).hop = 320 := by
    unfold AnalysisWindow.hop
    rw [real_ofNat, real_toUsize_floor (by norm_num) (by norm_num)]
    norm_num
  obtain ⟨fb', sp, h, -⟩ := buildSpectrogram_total 21 (FilterBank.new 21 50) ⟨x, 16000⟩ ⟨1280, 1 / 4⟩ hx (by rw [hh]; norm_num)
    (by norm_num)
  exact ⟨_, fb', sp, h, by norm_num [FilterBank.new], by unfold upperLimit; norm_num [FilterBank.new]⟩

end Visqol
