import Verif.Props.Filter
import Mathlib.Data.List.Sort

/-! # Band frequencies: C22 -/

set_option linter.unusedSectionVars false

namespace Visqol

/-- The upper end of the analysed frequency range: 8000 Hz for 21 bands, half the sample rate (rounded down) otherwise, and never
more than half the sample rate. -/
noncomputable def upperLimit (nb sr : ℕ) : ℝ := min (sr / 2 : ℝ) ((if nb = 21 then 8000 else sr / 2 : ℕ) : ℝ)

theorem effectiveHighFreq_real (nb sr : ℕ) :
    effectiveHighFreq sr (Flt.ofNat (builderMaxFreq nb sr) : ℝ) = upperLimit nb sr := by
  unfold effectiveHighFreq upperLimit builderMaxFreq
  simp only [real_ofNat, real_lt, real_lit2, decide_eq_true_eq]
  generalize ((if nb = 21 then 8000 else sr / 2 : ℕ) : ℝ) = u
  split
  · exact (min_eq_left (le_of_lt ‹_›)).symm
  · exact (min_eq_right (not_lt.mp ‹_›)).symm

theorem uniform_get {nb : ℕ} {lo hi : ℝ} {i : ℕ} (h : i < nb) :
    (uniformCenterFreqs nb lo hi)[i]? = some (-(earQ * minBw) + Real.exp ((i + 1) *
      ((Real.log (lo + earQ * minBw) - Real.log (hi + earQ * minBw)) / nb)) * (hi + earQ * minBw)) := by
  unfold uniformCenterFreqs
  rw [List.getElem?_map, List.getElem?_range h]
  simp only [Option.map_some, real_exp, real_ln, real_ofNat, real_lit1]
  congr 6
  ring

theorem earQ_minBw_pos : (0 : ℝ) < earQ * minBw := by
  unfold earQ minBw
  simp only [real_sci]
  norm_num

/-- The raw list decreases strictly, ends with the lower limit and stays below the upper one. -/
theorem uniform_facts {nb : ℕ} {lo hi : ℝ} (h0 : 0 ≤ lo) (h1 : lo < hi) :
    (uniformCenterFreqs nb lo hi).Pairwise (· > ·) ∧ (∀ f ∈ uniformCenterFreqs nb lo hi, f < hi) ∧
      (0 < nb → (uniformCenterFreqs nb lo hi)[nb - 1]? = some lo) := by
  have hk := earQ_minBw_pos
  have hget := fun i => uniform_get (nb := nb) (lo := lo) (hi := hi) (i := i)
  have hlen : (uniformCenterFreqs nb lo hi).length = nb := by simp [uniformCenterFreqs]
  generalize (earQ * minBw : ℝ) = k at *
  have hl : Real.log (lo + k) < Real.log (hi + k) := Real.log_lt_log (by linarith) (by linarith)
  have hd : 0 < hi + k := by linarith
  have he : ∀ i, i < nb → (Real.log (lo + k) - Real.log (hi + k)) / nb < 0 := fun i hi =>
    div_neg_of_neg_of_pos (by linarith) (by exact_mod_cast Nat.lt_of_le_of_lt (Nat.zero_le i) hi)
  refine ⟨?_, ?_, ?_⟩
  · rw [List.pairwise_iff_getElem]
    intro i j hil hj hij
    have e1 := hget i (by omega)
    have e2 := hget j (by omega)
    rw [List.getElem?_eq_getElem (by omega)] at e1 e2
    rw [Option.some.inj e1, Option.some.inj e2]
    have hneg := he i (by omega)
    have hlt : ((j : ℝ) + 1) * ((Real.log (lo + k) - Real.log (hi + k)) / nb) <
        ((i : ℝ) + 1) * ((Real.log (lo + k) - Real.log (hi + k)) / nb) := by
      have : (i : ℝ) + 1 < j + 1 := by exact_mod_cast Nat.add_lt_add_right hij 1
      exact mul_lt_mul_of_neg_right this hneg
    have := mul_lt_mul_of_pos_right (Real.exp_lt_exp.mpr hlt) hd
    linarith
  · intro f hf
    obtain ⟨i, hil, rfl⟩ := List.getElem_of_mem hf
    have e1 := hget i (by omega)
    rw [List.getElem?_eq_getElem hil] at e1
    rw [Option.some.inj e1]
    have hneg := he i (by omega)
    have : Real.exp (((i : ℝ) + 1) * ((Real.log (lo + k) - Real.log (hi + k)) / nb)) < 1 := by
      rw [← Real.exp_zero]
      exact Real.exp_lt_exp.mpr (mul_neg_of_pos_of_neg (by positivity) hneg)
    have := mul_lt_mul_of_pos_right this hd
    linarith
  · intro hnb
    rw [hget (nb - 1) (by omega)]
    have hn : ((nb - 1 : ℕ) : ℝ) + 1 = nb := by
      rw [Nat.cast_sub hnb]; simp
    have hne : (nb : ℝ) ≠ 0 := by positivity
    rw [hn, mul_div_cancel₀ _ hne, Real.exp_sub, Real.exp_log (by linarith), Real.exp_log hd, div_mul_cancel₀ _ hd.ne']
    congr 1
    ring

theorem sortFreqs_real {l : List ℝ} (h : l.Pairwise (· > ·)) : sortFreqs l = .ok l.reverse := by
  unfold sortFreqs
  rw [if_neg (by simp)]
  congr 1
  have hle : (fun a b : ℝ => !Flt.lt b a) = fun a b => decide (a ≤ b) := by
    funext a b
    simp only [real_lt]
    by_cases h : b < a <;> simp [h, not_lt.mp, le_of_not_gt]
  rw [hle]
  refine (((List.mergeSort_perm l _).trans (List.reverse_perm l).symm)).eq_of_pairwise' (r := (· ≤ ·)) ?_ ?_
  · exact List.pairwise_mergeSort' (· ≤ ·) l
  · rw [List.pairwise_reverse]
    exact h.imp fun h => le_of_lt h

/-- The reported bands are the raw ones reversed. -/
theorem bands_eq {nb sr : ℕ} {minFreq : ℝ} {bands : List ℝ} (h0 : 0 ≤ minFreq) (h1 : minFreq < upperLimit nb sr)
    (h : sortFreqs (rawFreqs nb sr minFreq) = .ok bands) :
    bands = (uniformCenterFreqs nb minFreq (upperLimit nb sr)).reverse := by
  have : rawFreqs nb sr minFreq = uniformCenterFreqs nb minFreq (upperLimit nb sr) := by
    unfold rawFreqs makeFilters
    rw [effectiveHighFreq_real]
  rw [this, sortFreqs_real (uniform_facts h0 h1).1] at h
  exact (Except.ok.inj h).symm

/-- The claim of C22 about a list of band frequencies. -/
structure LowestToHighest (nb : ℕ) (lo hi : ℝ) (bands : List ℝ) : Prop where
  count : bands.length = nb
  increasing : bands.Pairwise (· < ·)
  first : 0 < nb → bands[0]? = some lo
  below : ∀ f ∈ bands, lo ≤ f ∧ f < hi

theorem bands_facts {nb sr : ℕ} {minFreq : ℝ} {bands : List ℝ} (h0 : 0 ≤ minFreq) (h1 : minFreq < upperLimit nb sr)
    (h : sortFreqs (rawFreqs nb sr minFreq) = .ok bands) : LowestToHighest nb minFreq (upperLimit nb sr) bands := by
  obtain ⟨f1, f2, f3⟩ := uniform_facts (nb := nb) h0 h1
  have hl : (uniformCenterFreqs nb minFreq (upperLimit nb sr)).length = nb := by simp [uniformCenterFreqs]
  have hb := bands_eq h0 h1 h
  have hp : bands.Pairwise (· < ·) := by rw [hb, List.pairwise_reverse]; exact f1
  have hlen : bands.length = nb := by rw [hb, List.length_reverse, hl]
  have hfirst : 0 < nb → bands[0]? = some minFreq := by
    intro hn
    rw [hb, List.getElem?_reverse (by omega), hl]
    exact f3 hn
  refine ⟨hlen, hp, hfirst, fun f hf => ⟨?_, f2 f (by rw [hb] at hf; simpa using hf)⟩⟩
  obtain ⟨i, hi, rfl⟩ := List.getElem_of_mem hf
  have h00 := hfirst (by omega)
  rw [List.getElem?_eq_getElem (by omega)] at h00
  rw [← Option.some.inj h00]
  rcases Nat.eq_zero_or_pos i with rfl | hi0
  · exact le_refl _
  · exact le_of_lt (List.pairwise_iff_getElem.mp hp 0 i (by omega) hi hi0)

/-- C22, a spectrogram's bands. -/
theorem C22_bands {nb : ℕ} {fb fb' : FilterBank ℝ} {s : AudioSignal ℝ} {w : AnalysisWindow ℝ} {sp : Spectrogram ℝ}
    (h : buildSpectrogram nb fb s w = .ok (fb', sp)) (h0 : 0 ≤ fb.minFreq) (h1 : fb.minFreq < upperLimit nb s.sampleRate) :
    LowestToHighest nb fb.minFreq (upperLimit nb s.sampleRate) sp.centerFreqBands :=
  bands_facts h0 h1 (buildSpectrogram_ok h).2.2.2.2

/-- C22, rows: entry `(b, j)` is the root mean square of frame `j` filtered by the four sections of the frequency reported
at position `b`. -/
theorem C22_rows {nb : ℕ} {fb fb' : FilterBank ℝ} {s : AudioSignal ℝ} {w : AnalysisWindow ℝ} {sp : Spectrogram ℝ}
    (h : buildSpectrogram nb fb s w = .ok (fb', sp)) (h0 : 0 ≤ fb.minFreq) (h1 : fb.minFreq < upperLimit nb s.sampleRate)
    {b j : ℕ} {f : ℝ} (hb : sp.centerFreqBands[b]? = some f) (hj : j < sp.data.ncols) :
    let c := bandCoeffs s.sampleRate f
    ∃ y1 y2 y3 y4 : List ℝ,
      IsBiquad (c.a0 / c.gain) (c.a11 / c.gain) (c.a2 / c.gain) c.b1 c.b2 ((s.data.drop (j * w.hop)).take w.size) y1 ∧
      IsBiquad c.a0 c.a12 c.a2 c.b1 c.b2 y1 y2 ∧ IsBiquad c.a0 c.a13 c.a2 c.b1 c.b2 y2 y3 ∧
      IsBiquad c.a0 c.a14 c.a2 c.b1 c.b2 y3 y4 ∧ sp.data.at b j = rms y4 := by
  intro c
  obtain ⟨k1, k2, k3, k4, k5⟩ := buildSpectrogram_ok h
  have hbe := bands_eq h0 h1 k5
  refine ⟨_, _, _, _, C44_biquad ⟨c.a0 / c.gain, c.a11 / c.gain, c.a2 / c.gain⟩ ⟨c.b0, c.b1, c.b2⟩ _,
    C44_biquad ⟨c.a0, c.a12, c.a2⟩ ⟨c.b0, c.b1, c.b2⟩ _, C44_biquad ⟨c.a0, c.a13, c.a2⟩ ⟨c.b0, c.b1, c.b2⟩ _,
    C44_biquad ⟨c.a0, c.a14, c.a2⟩ ⟨c.b0, c.b1, c.b2⟩ _, ?_⟩
  have hraw : rawFreqs nb s.sampleRate fb.minFreq = uniformCenterFreqs nb fb.minFreq (upperLimit nb s.sampleRate) := by
    unfold rawFreqs makeFilters
    rw [effectiveHighFreq_real]
  have hrow : (rowCoeffs nb s.sampleRate fb.minFreq)[b]? = some c := by
    rw [rowCoeffs_eq, hraw, ← hbe, List.getElem?_map, hb]
    rfl
  rw [k4] at hj ⊢
  have hj' : j < numColumns s.data.length w.size w.hop := hj
  have : (spectroMat nb fb.minFreq s w).at b j = bandEnergy c (frameAt s w j) := by
    unfold Mat.at spectroMat
    simp only [List.getD_eq_getElem?_getD, List.getElem?_map, hrow, Option.map_some, Option.getD_some, List.getElem?_range hj']
  rw [this]
  unfold bandEnergy rms cascade
  simp only [real_sqrt, real_sum, real_ofNat, real_lit0, C44_length, frameAt, pow_two]

variable {p : Profile}

/-- C22, reported bands of a comparison: 50 Hz is the managers' minimum frequency. -/
theorem C22_result {m m' : Manager ℝ} {ref deg : AudioSignal ℝ} {res : SimilarityResult ℝ} (hm : m.filterBank.minFreq = 50)
    (h : m.computeResults p ref deg = .ok (m', res)) (h1 : 50 < upperLimit m.numBands ref.sampleRate) :
    LowestToHighest m.numBands 50 (upperLimit m.numBands ref.sampleRate) res.centerFreqBands := by
  obtain ⟨al, lag, _, ⟨st⟩⟩ := computeResults_stages h
  have := st.sorted
  rw [hm] at this
  exact bands_facts (by norm_num) h1 this

example : (50 : ℝ) < upperLimit 32 48000 := by unfold upperLimit; norm_num
example : (50 : ℝ) < upperLimit 21 16000 := by unfold upperLimit; norm_num

end Visqol
