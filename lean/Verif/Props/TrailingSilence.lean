import Verif.Props.PerfectMeansEqual
import Verif.Props.InvertedCopy

/-! # Silence at the end of the degraded file raises its level (C98) -/

set_option linter.unusedSectionVars false

namespace Visqol

open Spec

/-- A signal with `k` zeros appended. -/
def AudioSignal.padded (k : ℕ) (s : AudioSignal ℝ) : AudioSignal ℝ := ⟨s.data ++ List.replicate k 0, s.sampleRate⟩

/-- The factor by which a signal of `n` samples comes out too loud if `k` zeros follow it. -/
noncomputable def boost (n k : ℕ) : ℝ := Real.sqrt ((n + k) / n)

theorem boost_pos {n : ℕ} (hn : 0 < n) (k : ℕ) : 0 < boost n k := by
  unfold boost
  have : (0 : ℝ) < n := by exact_mod_cast hn
  positivity

theorem boost_one {n k : ℕ} (hn : 0 < n) : 1 ≤ boost n k ∧ (0 < k → 1 < boost n k) := by
  have h : (0 : ℝ) < n := by exact_mod_cast hn
  unfold boost
  constructor
  · rw [Real.one_le_sqrt, le_div_iff₀ h]
    have : (0 : ℝ) ≤ k := Nat.cast_nonneg _
    linarith
  · intro hk
    have : (0 : ℝ) < k := by exact_mod_cast hk
    rw [← Real.sqrt_one]
    apply Real.sqrt_lt_sqrt (by norm_num)
    rw [lt_div_iff₀ h]
    linarith

theorem boost_decibels {n k : ℕ} (hn : 0 < n) : 10 * Real.logb 10 (boost n k) = 5 * Real.logb 10 (1 + k / n) := by
  have h : (0 : ℝ) < n := by exact_mod_cast hn
  unfold boost
  rw [Real.sqrt_eq_rpow, Real.logb_rpow_eq_mul_logb_of_pos (by positivity), add_div, div_self h.ne']
  ring

theorem rms_padded (l : List ℝ) (k : ℕ) (hl : 0 < l.length) : rms l = boost l.length k * rms (l ++ List.replicate k 0) := by
  have h : (0 : ℝ) < l.length := by exact_mod_cast hl
  unfold rms boost
  rw [← Real.sqrt_mul (by positivity)]
  congr 1
  simp only [List.map_append, List.sum_append, List.map_replicate, List.sum_replicate, List.length_append, List.length_replicate]
  push_cast
  have : (l.length : ℝ) + k ≠ 0 := by positivity
  field_simp
  simp

theorem gain_padded (g : ℝ) (k : ℕ) (s : AudioSignal ℝ) : (s.padded k).gain g = (s.gain g).padded k := by
  unfold AudioSignal.gain AudioSignal.padded
  simp

/-- C98, level matching: with `k` zeros appended to the `n` samples of the degraded signal, these samples are made louder by the factor
`√((n + k) / n)`. -/
theorem C98_gain (ref deg : AudioSignal ℝ) (k : ℕ) (hr : ∃ x ∈ ref.data, x ≠ 0) (hd : ∃ x ∈ deg.data, x ≠ 0) :
    (scaleToMatchSpl ref ⟨deg.data ++ List.replicate k 0, deg.sampleRate⟩).data =
      (scaleToMatchSpl ref deg).data.map (Real.sqrt ((deg.data.length + k) / deg.data.length) * ·) ++ List.replicate k 0 := by
  obtain ⟨x, hx, hx0⟩ := hd
  have hn : 0 < deg.data.length := List.length_pos_of_mem hx
  have h1 := (rms_pos_iff _).mpr hr
  have h2 := (rms_pos_iff deg.data).mpr ⟨x, hx, hx0⟩
  have h3 : 0 < rms (deg.padded k).data := (rms_pos_iff _).mpr ⟨x, by unfold AudioSignal.padded; simp [hx], hx0⟩
  have hb := boost_pos hn k
  have e := rms_padded deg.data k hn
  change (scaleToMatchSpl ref (deg.padded k)).data = (scaleToMatchSpl ref deg).data.map (boost deg.data.length k * ·) ++ _
  rw [scale_eq_gain ref _ h1 h3, scale_eq_gain ref deg h1 h2, gain_padded]
  unfold AudioSignal.padded AudioSignal.gain at *
  simp only [List.map_map]
  congr 1
  apply List.map_congr_left
  intro y _
  simp only [Function.comp_apply]
  dsimp only at h3
  rw [e]
  field_simp

theorem scale_padded (ref deg : AudioSignal ℝ) (k : ℕ) (hr : ∃ x ∈ ref.data, x ≠ 0) (hd : ∃ x ∈ deg.data, x ≠ 0) :
    scaleToMatchSpl ref (deg.padded k) = ((scaleToMatchSpl ref deg).gain (boost deg.data.length k)).padded k := by
  have h := C98_gain ref deg k hr hd
  have e1 := (C13_shape ref (deg.padded k)).2
  have e2 := (C13_shape ref deg).2
  change (scaleToMatchSpl ref (deg.padded k)).data = _ at h
  generalize scaleToMatchSpl ref (deg.padded k) = a at *
  generalize scaleToMatchSpl ref deg = b at *
  cases a
  cases b
  dsimp only at h e1 e2
  subst h e1 e2
  rfl

theorem columns_padded {n k size hop j : ℕ} (hj : j < numColumns n size hop) : j < numColumns (n + k) size hop := by
  unfold numColumns at *
  have := Nat.div_le_div_right (c := hop) (show n - size ≤ n + k - size by omega)
  omega

theorem frame_padded {s : AudioSignal ℝ} {k : ℕ} {w : AnalysisWindow ℝ} {j : ℕ} (hw : w.size ≤ s.data.length)
    (hj : j < numColumns s.data.length w.size w.hop) : frameAt (s.padded k) w j = frameAt s w j := by
  have h : j * w.hop + w.size ≤ s.data.length := by
    unfold numColumns at hj
    have h1 : j ≤ (s.data.length - w.size) / w.hop := by omega
    have := Nat.mul_le_of_le_div _ _ _ h1
    omega
  unfold frameAt AudioSignal.padded
  dsimp only
  rw [List.drop_append_of_le_length (by omega), List.take_append_of_le_length (by simp; omega)]

/-- C98, spectrogram: in every frame of the degraded signal its spectrogram is larger by the factor `√((n + k) / n)` if `k` zeros are
appended to the `n` samples. -/
theorem C98_spectrogram {nb k : ℕ} {fb₁ fb₁' fb₂ fb₂' : FilterBank ℝ} {ref deg : AudioSignal ℝ} {w : AnalysisWindow ℝ}
    {a b : Spectrogram ℝ} (hr : ∃ x ∈ ref.data, x ≠ 0) (hd : ∃ x ∈ deg.data, x ≠ 0) (hf : fb₁.minFreq = fb₂.minFreq)
    (h₁ : buildSpectrogram nb fb₁ (scaleToMatchSpl ref deg) w = .ok (fb₁', a))
    (h₂ : buildSpectrogram nb fb₂ (scaleToMatchSpl ref ⟨deg.data ++ List.replicate k 0, deg.sampleRate⟩) w = .ok (fb₂', b)) :
    ∀ i < nb, ∀ j < a.data.ncols, j < b.data.ncols ∧
      b.data.at i j = Real.sqrt ((deg.data.length + k) / deg.data.length) * a.data.at i j := by
  obtain ⟨w1, w2, w3, e1, _⟩ := buildSpectrogram_ok h₁
  obtain ⟨_, _, _, e2, _⟩ := buildSpectrogram_ok h₂
  change b.data = spectroMat nb fb₂.minFreq (scaleToMatchSpl ref (deg.padded k)) w at e2
  rw [scale_padded ref deg k hr hd, ← hf] at e2
  intro i hi j hj
  obtain ⟨x, hx, _⟩ := hd
  have hb := boost_pos (List.length_pos_of_mem hx) k
  change _ ∧ _ = boost deg.data.length k * _
  generalize boost deg.data.length k = g at *
  generalize scaleToMatchSpl ref deg = s at *
  rw [e1] at hj ⊢
  have hj : j < numColumns s.data.length w.size w.hop := hj
  have hl : (s.gain g).data.length = s.data.length := by simp [AudioSignal.gain]
  have hl2 : ((s.gain g).padded k).data.length = s.data.length + k := by rw [← hl]; simp [AudioSignal.padded]
  have hj2 : j < numColumns ((s.gain g).padded k).data.length w.size w.hop := by rw [hl2]; exact columns_padded hj
  rw [e2]
  refine ⟨hj2, ?_⟩
  rw [spectroMat_at _ _ _ _ hi hj2, spectroMat_at _ _ _ _ hi hj, frame_padded (by rw [hl]; exact w1) (by rw [hl]; exact hj), frameAt_gain,
    bandEnergy_gain, abs_of_pos hb]
  rfl

theorem scale_same (s : AudioSignal ℝ) : scaleToMatchSpl s s = s := by
  unfold scaleToMatchSpl
  simp only [sub_self, real_powf, real_sci, zero_div, Real.rpow_zero, mul_one, List.map_id']

theorem decibels_boost {g x : ℝ} (hg : 0 < g) (hx : x ≠ 0) : decibels (g * x) = 10 * Real.logb 10 g + decibels x := by
  unfold decibels
  rw [if_neg (mul_ne_zero hg.ne' hx), if_neg hx, abs_mul, abs_of_pos hg, Real.logb_mul hg.ne' (abs_ne_zero.mpr hx)]
  ring

theorem decibels_zero : decibels 0 < -45 := by
  unfold decibels
  rw [if_pos rfl, Real.logb_div (by norm_num) (by norm_num), Real.logb_one]
  have : (5 : ℝ) ≤ Real.logb 10 (2 ^ 52) := by
    rw [Real.le_logb_iff_rpow_le (by norm_num) (by norm_num)]
    calc (10 : ℝ) ^ (5 : ℝ) = 10 ^ (5 : ℕ) := by rw [← Real.rpow_natCast]; norm_num
      _ ≤ 2 ^ 52 := by norm_num
  generalize Real.logb 10 (2 ^ 52) = t at *
  linarith only [this]

theorem bandEnergy_nonneg (c : BandCoeffs ℝ) (l : List ℝ) : 0 ≤ bandEnergy c l := by
  unfold bandEnergy
  simp only [real_sqrt]
  exact Real.sqrt_nonneg _

/-- C98, levels: let the reference be compared with itself and `k` zeros appended.  In every frame of the reference the loudest band, if
it lies above the absolute floor, comes out higher in the degraded signal than in the reference, by `5 log10 (1 + k / n)` or by
45 if that is smaller. -/
theorem C98_levels {nb k : ℕ} {fb₁ fb₁' fb₂ fb₂' : FilterBank ℝ} {ref : AudioSignal ℝ} {w : AnalysisWindow ℝ} {R D : Spectrogram ℝ}
    {a b : Mat ℝ} (hr : ∃ x ∈ ref.data, x ≠ 0) (hf : fb₁.minFreq = fb₂.minFreq)
    (h₁ : buildSpectrogram nb fb₁ ref w = .ok (fb₁', R))
    (h₂ : buildSpectrogram nb fb₂ (scaleToMatchSpl ref ⟨ref.data ++ List.replicate k 0, ref.sampleRate⟩) w = .ok (fb₂', D))
    (hp : prepareSpectrograms R.data D.data = .ok (a, b)) {i j : ℕ} (hi : i < nb) (hj : j < R.data.ncols)
    (hfl : -45 ≤ decibels (R.data.at i j)) (hmax : ∀ i' < nb, R.data.at i' j ≤ R.data.at i j) :
    b.at i j - a.at i j = min 45 (5 * Real.logb 10 (1 + k / ref.data.length)) := by
  have hx : R.data.at i j ≠ 0 := by
    intro h
    rw [h] at hfl
    linarith [decibels_zero]
  have hn : 0 < ref.data.length := by
    obtain ⟨x, hx, _⟩ := hr
    exact List.length_pos_of_mem hx
  have hspec := C98_spectrogram hr hr hf (by rw [scale_same]; exact h₁) h₂
  obtain ⟨_, _, _, e1, _⟩ := buildSpectrogram_ok h₁
  obtain ⟨_, _, _, e2, _⟩ := buildSpectrogram_ok h₂
  have wr : R.data.WF := e1 ▸ spectroMat_wf _ _ _ _
  have wd : D.data.WF := e2 ▸ spectroMat_wf _ _ _ _
  have hpos : ∀ i' < nb, 0 ≤ R.data.at i' j := by
    intro i' hi'
    rw [e1] at hj ⊢
    rw [spectroMat_at _ _ _ _ hi' hj]
    exact bandEnergy_nonneg _ _
  have n1 : R.data.nrows = nb := e1 ▸ spectroMat_nrows _ _ _ _
  have n2 : D.data.nrows = nb := e2 ▸ spectroMat_nrows _ _ _ _
  obtain ⟨_, _, _, _, _, _, peak, low, fr, fd, hpk, hfr, hfd, _, ha, hb⟩ := C23_formula wr wd hp
  rw [n1, n2] at hpk
  rw [n1] at ha
  rw [n2] at hb
  have hjd := (hspec i hi j hj).1
  have hB := boost_pos hn k
  have hB1 := (boost_one (k := k) hn).1
  have hval : ∀ i < nb, D.data.at i j = boost ref.data.length k * R.data.at i j := fun i hi => (hspec i hi j hj).2
  have hΔ : 0 ≤ 10 * Real.logb 10 (boost ref.data.length k) := by
    have := Real.logb_nonneg (b := 10) (by norm_num) hB1
    linarith
  rw [← boost_decibels hn]
  generalize boost ref.data.length k = g at *
  have hmono : ∀ x y : ℝ, 0 ≤ x → x ≤ y → y ≠ 0 → -45 ≤ decibels y → raised x ≤ decibels y := by
    intro x y h0 hxy hy hy2
    unfold raised
    refine max_le hy2 ?_
    by_cases hx0 : x = 0
    · rw [hx0]
      exact decibels_zero.le.trans hy2
    · unfold decibels
      rw [if_neg hx0, if_neg hy, abs_of_nonneg h0, abs_of_nonneg (h0.trans hxy)]
      have := Real.logb_le_logb_of_le (b := 10) (by norm_num) (lt_of_le_of_ne h0 (Ne.symm hx0)) hxy
      linarith
  have hdec := decibels_boost hB hx
  have hgx : g * R.data.at i j ≠ 0 := mul_ne_zero hB.ne' hx
  obtain ⟨p0, p1, p2⟩ := hpk j hj hjd
  have hpeak : peak j = 10 * Real.logb 10 g + decibels (R.data.at i j) := by
    apply le_antisymm
    · rcases p0 with ⟨i', hi', e⟩ | ⟨i', hi', e⟩
      · rw [e]
        have := hmono _ _ (hpos i' hi') (hmax i' hi') hx hfl
        linarith
      · rw [e, hval i' hi', ← hdec]
        exact hmono _ _ (mul_nonneg hB.le (hpos i' hi')) (mul_le_mul_of_nonneg_left (hmax i' hi') hB.le) hgx (by rw [hdec]; linarith)
    · refine le_trans ?_ (p2 i hi)
      rw [hval i hi, ← hdec]
      exact le_max_right _ _
  rw [ha i hi j hj, hb i hi j hjd, hfr, hfd, if_pos ⟨hjd, hj⟩, if_pos ⟨hjd, hj⟩, hval i hi]
  have r1 : raised (R.data.at i j) = decibels (R.data.at i j) := max_eq_right hfl
  have r2 : raised (g * R.data.at i j) = 10 * Real.logb 10 g + decibels (R.data.at i j) := by
    rw [← hdec]
    exact max_eq_right (by rw [hdec]; linarith)
  rw [r1, r2, hpeak]
  generalize 10 * Real.logb 10 g = Δ at *
  generalize decibels (R.data.at i j) = x
  rw [max_eq_right (show Δ + x - 45 ≤ Δ + x by linarith)]
  rcases le_total Δ 45 with h | h
  · rw [max_eq_right (by linarith), min_eq_right h]; ring
  · rw [max_eq_left (by linarith), min_eq_left h]; ring

/-- C98, similarity: if the reference is compared with itself and `k > 0` zeros appended, then the frames `s` to `t` of the two, compared
in place, do not get similarity 1 if one of them lies above the absolute floor. -/
theorem C98_similarity {p : Profile} {nb k : ℕ} {fb₁ fb₁' fb₂ fb₂' : FilterBank ℝ} {ref : AudioSignal ℝ} {w : AnalysisWindow ℝ}
    {R D : Spectrogram ℝ} {a b A B : Mat ℝ} {q : PatchSim ℝ} (hr : ∃ x ∈ ref.data, x ≠ 0) (hk : 0 < k) (hf : fb₁.minFreq = fb₂.minFreq)
    (h₁ : buildSpectrogram nb fb₁ ref w = .ok (fb₁', R))
    (h₂ : buildSpectrogram nb fb₂ (scaleToMatchSpl ref ⟨ref.data ++ List.replicate k 0, ref.sampleRate⟩) w = .ok (fb₂', D))
    (hp : prepareSpectrograms R.data D.data = .ok (a, b)) {s t i j : ℕ} (hA : a.sliceCols s t = .ok A) (hB : b.sliceCols s t = .ok B)
    (hq : measurePatchSimilarity p A B = .ok q) (hi : i < nb) (hsj : s ≤ j) (hjt : j < t)
    (hfl : -45 ≤ decibels (R.data.at i j)) : q.similarity < 1 := by
  obtain ⟨_, _, _, e1, _⟩ := buildSpectrogram_ok h₁
  obtain ⟨_, _, _, e2, _⟩ := buildSpectrogram_ok h₂
  have wr : R.data.WF := e1 ▸ spectroMat_wf _ _ _ _
  have wd : D.data.WF := e2 ▸ spectroMat_wf _ _ _ _
  have n1 : R.data.nrows = nb := e1 ▸ spectroMat_nrows _ _ _ _
  have n2 : D.data.nrows = nb := e2 ▸ spectroMat_nrows _ _ _ _
  obtain ⟨wa, wb, s1, s2, s3, s4, _⟩ := C23_formula wr wd hp
  obtain ⟨u1, u2, u3, u4, u5⟩ := sliceCols_ok hA
  obtain ⟨v1, v2, v3, v4, v5⟩ := sliceCols_ok hB
  have hn : 0 < ref.data.length := by
    obtain ⟨x, hx, _⟩ := hr
    exact List.length_pos_of_mem hx
  have hjR : j < R.data.ncols := by omega
  -- the loudest band of the frame
  obtain ⟨i', hi', hmax⟩ := Finset.exists_max_image (Finset.range nb) (fun i => R.data.at i j) ⟨i, Finset.mem_range.mpr hi⟩
  have hi' := Finset.mem_range.mp hi'
  have hmax : ∀ i'' < nb, R.data.at i'' j ≤ R.data.at i' j := fun i'' h => hmax i'' (Finset.mem_range.mpr h)
  have hx : R.data.at i j ≠ 0 := by
    intro h
    rw [h] at hfl
    linarith [decibels_zero]
  have h0 : 0 < R.data.at i j := by
    refine lt_of_le_of_ne ?_ (Ne.symm hx)
    rw [e1] at hjR ⊢
    rw [spectroMat_at _ _ _ _ hi hjR]
    exact bandEnergy_nonneg _ _
  have hfl' : -45 ≤ decibels (R.data.at i' j) := by
    refine hfl.trans ?_
    have h1 := hmax i hi
    unfold decibels
    rw [if_neg hx, if_neg (h0.trans_le h1).ne', abs_of_pos h0, abs_of_pos (h0.trans_le h1)]
    have := Real.logb_le_logb_of_le (b := 10) (by norm_num) h0 h1
    linarith
  have key := C98_levels hr hf h₁ h₂ hp hi' hjR hfl' hmax
  have hpos : 0 < min 45 (5 * Real.logb 10 (1 + (k : ℝ) / ref.data.length)) := by
    have hk' : (0 : ℝ) < k := by exact_mod_cast hk
    have hn' : (0 : ℝ) < ref.data.length := by exact_mod_cast hn
    have h1 : (1 : ℝ) < 1 + k / ref.data.length := by
      have : 0 < (k : ℝ) / ref.data.length := by positivity
      linarith
    have := Real.logb_pos (b := 10) (by norm_num) h1
    exact lt_min (by norm_num) (by linarith)
  refine lt_of_le_of_ne (C07_nsim_bounds p A B (u5 wa) (v5 wb) q hq).2.2 fun h1 => ?_
  have heq := (C97_patch (u5 wa) (v5 wb) hq).mp h1
  have a1 := sliceCols_at wa hA (i := i') (j := j - s) (by omega) (by omega)
  have b1 := sliceCols_at wb hB (i := i') (j := j - s) (by omega) (by omega)
  rw [Nat.add_sub_of_le hsj] at a1 b1
  rw [← a1, ← b1, heq, sub_self] at key
  rw [← key] at hpos
  exact lt_irrefl _ hpos

/-! ## Any sound is heard in every band -/

theorem filterSignal_silent {num den : Taps ℝ} (h0 : num.c0 ≠ 0) : ∀ (l : List ℝ), (∀ y ∈ (filterSignal num den l (0.0, 0.0)).1, y = 0) →
    ∀ x ∈ l, x = 0
  | [], _ => by simp
  | x :: l, h => by
    rw [filterSignal] at h
    dsimp only at h
    have h1 := h _ List.mem_cons_self
    rw [real_lit0, add_zero] at h1
    have hx : x = 0 := (mul_eq_zero.mp h1).resolve_left h0
    subst hx
    have e : (num.c1 * (0 : ℝ) + 0.0 - den.c1 * (num.c0 * 0 + 0.0), num.c2 * (0 : ℝ) - den.c2 * (num.c0 * 0 + 0.0)) = ((0.0 : ℝ), (0.0 : ℝ)) := by
      rw [real_lit0]; simp
    rw [e] at h
    intro y hy
    rcases List.mem_cons.mp hy with rfl | hy
    · rfl
    · exact filterSignal_silent h0 l (fun y hy => h y (List.mem_cons_of_mem _ hy)) y hy

theorem cascade_silent {c : BandCoeffs ℝ} (h0 : c.a0 ≠ 0) (hg : c.gain ≠ 0) {l : List ℝ} (h : ∀ y ∈ cascade c l, y = 0) : ∀ x ∈ l, x = 0 := by
  unfold cascade at h
  dsimp only at h
  exact filterSignal_silent (div_ne_zero h0 hg) _ (filterSignal_silent (by exact h0) _ (filterSignal_silent (by exact h0) _
    (filterSignal_silent (by exact h0) _ h)))

theorem bandCoeffs_nonzero {sr : ℕ} {f : ℝ} (h0 : 0 < f) (h1 : f < sr / 2) : (bandCoeffs sr f).a0 ≠ 0 ∧ (bandCoeffs sr f).gain ≠ 0 := by
  have hs : (0 : ℝ) < sr := by linarith
  have hg := bandCoeffs_gain (sr := sr) h0
  obtain ⟨hD, n1, n2, n3, n4⟩ := gain_pos h0 h1
  obtain ⟨e0, -⟩ := bandCoeffs_spec (sr := sr) h0
  dsimp only at *
  refine ⟨by rw [e0]; positivity, ?_⟩
  rw [hg]
  exact div_ne_zero (norm_ne_zero_iff.mpr (mul_ne_zero (mul_ne_zero (mul_ne_zero n1 n2) n3) n4)) (pow_ne_zero _ (norm_ne_zero_iff.mpr hD))

/-- C98, sound: a band of a spectrogram is zero in a frame only if the frame consists of zeros. -/
theorem C98_sound {nb : ℕ} {fb fb' : FilterBank ℝ} {s : AudioSignal ℝ} {w : AnalysisWindow ℝ} {sp : Spectrogram ℝ}
    (h : buildSpectrogram nb fb s w = .ok (fb', sp)) (h0 : 0 < fb.minFreq) (h1 : fb.minFreq < upperLimit nb s.sampleRate) {i j : ℕ}
    (hi : i < nb) (hj : j < sp.data.ncols) :
    sp.data.at i j = 0 ↔ ∀ x ∈ (s.data.drop (j * w.hop)).take w.size, x = 0 := by
  obtain ⟨k1, k2, k3, k4, k5⟩ := buildSpectrogram_ok h
  have hbe := bands_eq h0.le h1 k5
  have hb := C22_bands h h0.le h1
  have hraw : rawFreqs nb s.sampleRate fb.minFreq = uniformCenterFreqs nb fb.minFreq (upperLimit nb s.sampleRate) := by
    unfold rawFreqs makeFilters
    rw [effectiveHighFreq_real]
  have hil : i < sp.centerFreqBands.length := by rw [hb.count]; exact hi
  obtain ⟨f1, f2⟩ := hb.below _ (List.getElem_mem hil)
  have hf2 : sp.centerFreqBands[i] < (s.sampleRate : ℝ) / 2 := f2.trans_le (min_le_left _ _)
  obtain ⟨c1, c2⟩ := bandCoeffs_nonzero (sr := s.sampleRate) (h0.trans_le f1) hf2
  have hrow : (rowCoeffs nb s.sampleRate fb.minFreq)[i]? = some (bandCoeffs s.sampleRate sp.centerFreqBands[i]) := by
    rw [rowCoeffs_eq, hraw, ← hbe, List.getElem?_map, List.getElem?_eq_getElem hil]
    rfl
  generalize bandCoeffs s.sampleRate sp.centerFreqBands[i] = c at *
  rw [k4] at hj ⊢
  have hj' : j < numColumns s.data.length w.size w.hop := hj
  have e : (spectroMat nb fb.minFreq s w).at i j = bandEnergy c (frameAt s w j) := by
    unfold Mat.at spectroMat
    simp only [List.getD_eq_getElem?_getD, List.getElem?_map, hrow, Option.map_some, Option.getD_some, List.getElem?_range hj']
  rw [e]
  change bandEnergy c (frameAt s w j) = 0 ↔ ∀ x ∈ frameAt s w j, x = 0
  generalize frameAt s w j = l
  have hr : bandEnergy c l = rms (cascade c l) := by
    unfold bandEnergy rms cascade
    simp only [real_sqrt, real_sum, real_ofNat, real_lit0, C44_length, pow_two]
  rw [hr]
  constructor
  · intro h
    refine cascade_silent c1 c2 fun y hy => ?_
    by_contra hy0
    have := (rms_pos_iff (cascade c l)).mpr ⟨y, hy, hy0⟩
    linarith
  · intro h
    have hl : l = l.map (0 * ·) := by
      conv_lhs => rw [← List.map_id' l]
      exact List.map_congr_left fun x hx => by rw [h x hx]; simp
    rw [hl, cascade_gain, rms_gain, abs_zero, zero_mul]

/-- A steady signal of a suitable level with half a second of silence appended meets the hypotheses of the theorems of C98. -/
example (p : Profile) : ∃ (fb₁' fb₂' : FilterBank ℝ) (g : ℝ) (R D : Spectrogram ℝ) (a b A B : Mat ℝ) (q : PatchSim ℝ),
    (∃ x ∈ (List.replicate 4000 g), x ≠ 0) ∧
    buildSpectrogram 21 (FilterBank.new 21 50) ⟨List.replicate 4000 g, 16000⟩ (AnalysisWindow.mk' 16000 0.25 0.08) = .ok (fb₁', R) ∧
    buildSpectrogram 21 (FilterBank.new 21 50) (scaleToMatchSpl ⟨List.replicate 4000 g, 16000⟩
      ⟨List.replicate 4000 g ++ List.replicate 8000 0, 16000⟩) (AnalysisWindow.mk' 16000 0.25 0.08) = .ok (fb₂', D) ∧
    prepareSpectrograms R.data D.data = .ok (a, b) ∧ a.sliceCols 0 2 = .ok A ∧ b.sliceCols 0 2 = .ok B ∧
    measurePatchSimilarity p A B = .ok q ∧ -45 ≤ decibels (R.data.at 0 0) ∧ q.similarity < 1 := by
  obtain ⟨N, hN⟩ : ∃ N, N = 4000 := ⟨_, rfl⟩
  obtain ⟨M, hM⟩ : ∃ M, M = 8000 := ⟨_, rfl⟩
  rw [← hN, ← hM]
  obtain ⟨w1, w2, w3⟩ := window_facts (sr := 16000) (by norm_num) (by norm_num)
  rw [window_16k] at w1 w2
  generalize hw : (AnalysisWindow.mk' 16000 0.25 0.08 : AnalysisWindow ℝ) = w at *
  have build : ∀ s : AudioSignal ℝ, N ≤ s.data.length → ∃ fb' sp, buildSpectrogram 21 (FilterBank.new 21 50) s w = .ok (fb', sp) ∧
      sp.data = spectroMat 21 50 s w := by
    intro s hs
    obtain ⟨fb', sp, h, hd, _⟩ := buildSpectrogram_total 21 (FilterBank.new 21 50) s w (by omega) (by omega) (by omega)
    exact ⟨fb', sp, h, hd⟩
  have lim : (50 : ℝ) < upperLimit 21 16000 := by unfold upperLimit; norm_num
  -- the level of ones
  obtain ⟨_, O, hO, eO⟩ := build ⟨List.replicate N 1, 16000⟩ (by simp)
  have hc : numColumns N w.size w.hop = 9 := by unfold numColumns; rw [w1, w2, hN]
  have ncO : O.data.ncols = 9 := by rw [eO]; show numColumns (List.replicate N (1 : ℝ)).length _ _ = 9; rw [List.length_replicate, hc]
  have hpos : 0 < O.data.at 0 0 := by
    refine lt_of_le_of_ne ?_ (Ne.symm ?_)
    · rw [eO, spectroMat_at _ _ _ _ (by norm_num) (by simp [hc])]
      exact bandEnergy_nonneg _ _
    · rw [Ne, C98_sound hO (by show (0 : ℝ) < 50; norm_num) lim (by norm_num) (by omega)]
      intro h
      have := h 1 (by
        rw [Nat.zero_mul, List.drop_zero, List.take_replicate, w1]
        exact List.mem_replicate.mpr ⟨by rw [hN]; norm_num, rfl⟩)
      norm_num at this
  have hg : 0 < 1 / O.data.at 0 0 := by positivity
  generalize hx : O.data.at 0 0 = x at *
  have eg : (⟨List.replicate N (1 / x), 16000⟩ : AudioSignal ℝ) = AudioSignal.gain (1 / x) ⟨List.replicate N 1, 16000⟩ := by
    unfold AudioSignal.gain
    simp only [List.map_replicate, mul_one]
  obtain ⟨fb₁', R, hR, eR⟩ := build ⟨List.replicate N (1 / x), 16000⟩ (by simp)
  obtain ⟨fb₂', D, hD, eD⟩ := build (scaleToMatchSpl ⟨List.replicate N (1 / x), 16000⟩
      ⟨List.replicate N (1 / x) ++ List.replicate M 0, 16000⟩) (by rw [(C13_shape _ _).1]; simp)
  have ncR : R.data.ncols = 9 := by
    rw [eR]; show numColumns (List.replicate N (1 / x)).length _ _ = 9; rw [List.length_replicate, hc]
  have ncD : 9 ≤ D.data.ncols := by
    rw [eD]
    show 9 ≤ numColumns _ _ _
    rw [(C13_shape _ _).1, ← hc]
    simp only [List.length_append, List.length_replicate]
    unfold numColumns
    rw [w1, w2, hN, hM]
    norm_num
  have wR : R.data.WF := eR ▸ spectroMat_wf _ _ _ _
  have wD : D.data.WF := eD ▸ spectroMat_wf _ _ _ _
  have n1 : R.data.nrows = 21 := eR ▸ spectroMat_nrows _ _ _ _
  have n2 : D.data.nrows = 21 := eD ▸ spectroMat_nrows _ _ _ _
  have v : R.data.at 0 0 = 1 := by
    have hx' : (spectroMat 21 50 ⟨List.replicate N 1, 16000⟩ w).at 0 0 = x := by rw [← eO, hx]
    rw [spectroMat_at _ _ _ _ (by norm_num) (by simp [hc])] at hx'
    rw [eR, eg, spectroMat_at _ _ _ _ (by norm_num) (by simp [hc, AudioSignal.gain]), frameAt_gain, bandEnergy_gain, abs_of_pos hg]
    have hx2 : x ≠ 0 := hpos.ne'
    refine Eq.trans (congrArg (1 / x * ·) (show _ = x from hx')) ?_
    show 1 / x * x = 1
    field_simp
  obtain ⟨a, b, hab⟩ := C23_total wR wD (by omega) (by omega) (by omega) (by omega)
  obtain ⟨wa, wb, s1, s2, s3, s4, _⟩ := C23_formula wR wD hab
  obtain ⟨A, hA⟩ := sliceCols_of_le (m := a) (a := 0) (b := 2) (by omega) (by omega)
  obtain ⟨B, hB⟩ := sliceCols_of_le (m := b) (a := 0) (b := 2) (by omega) (by omega)
  obtain ⟨_, _, t1, t2, t3⟩ := sliceCols_ok hA
  obtain ⟨_, _, t4, t5, t6⟩ := sliceCols_ok hB
  obtain ⟨q, hq⟩ := (measure_formula p (t3 wa) (t6 wb)).1.mpr ⟨⟨by omega, by omega⟩, by omega, by omega⟩
  have hfl : -45 ≤ decibels (R.data.at 0 0) := by
    rw [v]; unfold decibels; norm_num
  have hne : ∃ y ∈ (List.replicate N (1 / x)), y ≠ 0 := ⟨1 / x, List.mem_replicate.mpr ⟨by omega, rfl⟩, hg.ne'⟩
  exact ⟨fb₁', fb₂', 1 / x, R, D, a, b, A, B, q, hne, hR, hD, hab, hA, hB, hq, hfl,
    C98_similarity hne (by omega : 0 < M) rfl hR hD hab hA hB hq (by norm_num : 0 < 21) (le_refl 0) (by norm_num) hfl⟩

end Visqol
