import Verif.Lemmas.Shape
import Verif.Num.Dft
import Verif.Spec.Filter

/-! # Level matching: C12, C13 -/

set_option linter.unusedSectionVars false

namespace Visqol

/-- A signal multiplied by a constant. -/
def AudioSignal.gain (g : ℝ) (s : AudioSignal ℝ) : AudioSignal ℝ := ⟨s.data.map (g * ·), s.sampleRate⟩

theorem spl_real (l : List ℝ) : soundPressureLevel l = 20 * Real.logb 10 (rms l / (1 / 50000)) := by
  unfold soundPressureLevel rms
  simp only [real_iterSum, real_sqrt, real_ofNat, real_log10, real_sci, pow_two]
  norm_num

theorem rms_nonneg (l : List ℝ) : 0 ≤ rms l := Real.sqrt_nonneg _

theorem rms_gain (g : ℝ) (l : List ℝ) : rms (l.map (g * ·)) = |g| * rms l := by
  unfold rms
  rw [List.length_map, List.map_map]
  have : (l.map ((fun x => x ^ 2) ∘ (g * ·))).sum = g ^ 2 * (l.map fun x => x ^ 2).sum := by
    rw [← List.sum_map_mul_left]
    congr 1
    apply List.map_congr_left
    intro x _
    simp only [Function.comp]
    ring
  rw [this, mul_div_assoc, Real.sqrt_mul (sq_nonneg g), Real.sqrt_sq_eq_abs]

theorem rms_pos_iff (l : List ℝ) : 0 < rms l ↔ ∃ x ∈ l, x ≠ 0 := by
  have hnn : ∀ y ∈ l.map (fun x => x ^ 2), 0 ≤ y := by
    intro y hy
    obtain ⟨x, _, rfl⟩ := List.mem_map.mp hy
    exact sq_nonneg x
  constructor
  · intro h
    by_contra hc
    push Not at hc
    have : (l.map fun x => x ^ 2).sum = 0 := by
      apply List.sum_eq_zero
      intro y hy
      obtain ⟨x, hx, rfl⟩ := List.mem_map.mp hy
      rw [hc x hx]; ring
    unfold rms at h
    rw [this] at h
    simp at h
  · rintro ⟨x, hx, hx0⟩
    apply Real.sqrt_pos.mpr
    have hlen : 0 < l.length := List.length_pos_of_mem hx
    have : x ^ 2 ≤ (l.map fun x => x ^ 2).sum := List.single_le_sum hnn _ (List.mem_map.mpr ⟨x, hx, rfl⟩)
    have : 0 < x ^ 2 := by positivity
    have : (0 : ℝ) < l.length := by exact_mod_cast hlen
    apply div_pos <;> linarith

/-- The factor applied to the degraded signal. -/
theorem scale_eq_gain (ref deg : AudioSignal ℝ) (hr : 0 < rms ref.data) (hd : 0 < rms deg.data) :
    scaleToMatchSpl ref deg = deg.gain (rms ref.data / rms deg.data) := by
  unfold scaleToMatchSpl AudioSignal.gain
  simp only [spl_real, real_powf, real_sci]
  have : ((100 : ℕ) : ℝ) / 10 ^ 1 = 10 := by norm_num
  have e : (20 * Real.logb 10 (rms ref.data / (1 / 50000)) - 20 * Real.logb 10 (rms deg.data / (1 / 50000))) /
      (((200 : ℕ) : ℝ) / 10 ^ 1) = Real.logb 10 (rms ref.data / rms deg.data) := by
    have h1 : Real.logb 10 (rms ref.data / rms deg.data) =
        Real.logb 10 (rms ref.data / (1 / 50000)) - Real.logb 10 (rms deg.data / (1 / 50000)) := by
      rw [← Real.logb_div (by positivity) (by positivity)]
      congr 1
      field_simp
    rw [h1]
    generalize Real.logb 10 (rms ref.data / (1 / 50000)) = a
    generalize Real.logb 10 (rms deg.data / (1 / 50000)) = b
    norm_num
    ring
  rw [this, e, Real.rpow_logb (by norm_num) (by norm_num) (div_pos hr hd)]
  congr 1
  apply List.map_congr_left
  intro x _
  ring

/-- C13: after level matching a degraded signal has its length and sample rate, is the original times one positive constant, and
has the reference's root mean square (both signals non-silent). -/
theorem C13_level_matching (ref deg : AudioSignal ℝ) (hr : ∃ x ∈ ref.data, x ≠ 0) (hd : ∃ x ∈ deg.data, x ≠ 0) :
    (scaleToMatchSpl ref deg).data.length = deg.data.length ∧ (scaleToMatchSpl ref deg).sampleRate = deg.sampleRate ∧
      (∃ g > 0, (scaleToMatchSpl ref deg).data = deg.data.map (g * ·)) ∧
      rms (scaleToMatchSpl ref deg).data = rms ref.data := by
  have hr := (rms_pos_iff _).mpr hr
  have hd := (rms_pos_iff _).mpr hd
  rw [scale_eq_gain ref deg hr hd]
  refine ⟨by simp [AudioSignal.gain], rfl, ⟨_, div_pos hr hd, rfl⟩, ?_⟩
  unfold AudioSignal.gain
  simp only
  rw [rms_gain, abs_of_pos (div_pos hr hd), div_mul_cancel₀ _ hd.ne']

/-- C13 in every arithmetic: length and sample rate are kept. -/
theorem C13_shape {F : Type} [Flt F] (ref deg : AudioSignal F) :
    (scaleToMatchSpl ref deg).data.length = deg.data.length ∧ (scaleToMatchSpl ref deg).sampleRate = deg.sampleRate := by
  simp [scaleToMatchSpl]

example : (∃ x ∈ (⟨[0, 1], 16000⟩ : AudioSignal ℝ).data, x ≠ 0) ∧ ∃ x ∈ (⟨[3, 0, 0], 16000⟩ : AudioSignal ℝ).data, x ≠ 0 :=
  ⟨⟨1, by simp, by simp⟩, ⟨3, by simp, by simp⟩⟩

theorem scale_gain (ref deg : AudioSignal ℝ) {g : ℝ} (hg : 0 < g) (hd : 0 < rms deg.data) :
    scaleToMatchSpl ref (deg.gain g) = scaleToMatchSpl ref deg := by
  have hgr : rms (deg.gain g).data = g * rms deg.data := by
    unfold AudioSignal.gain; rw [rms_gain, abs_of_pos hg]
  unfold scaleToMatchSpl
  simp only [spl_real, real_powf, hgr, real_sci]
  have h10 : ((100 : ℕ) : ℝ) / 10 ^ 1 = 10 := by norm_num
  have e : ∀ a : ℝ, (a - 20 * Real.logb 10 (g * rms deg.data / (1 / 50000))) / (((200 : ℕ) : ℝ) / 10 ^ 1) =
      (a - 20 * Real.logb 10 (rms deg.data / (1 / 50000))) / (((200 : ℕ) : ℝ) / 10 ^ 1) - Real.logb 10 g := by
    intro a
    rw [mul_div_assoc, Real.logb_mul hg.ne' (by positivity)]
    norm_num
    ring
  rw [h10, e, Real.rpow_sub (by norm_num), Real.rpow_logb (by norm_num) (by norm_num) hg]
  unfold AudioSignal.gain
  simp only [List.map_map]
  congr 1
  apply List.map_congr_left
  intro x _
  simp only [Function.comp]
  field_simp

/-- C12: the gain of the aligned degraded signal does not influence the result (the degraded signal not being silent). -/
theorem C12_gain (p : Profile) (nb : ℕ) (fb : FilterBank ℝ) (ref deg : AudioSignal ℝ) (w : AnalysisWindow ℝ) (pc : PatchCreator)
    (mapper : QualityMapper ℝ) (sw : ℕ) {g : ℝ} (hg : 0 < g) (hd : ∃ x ∈ deg.data, x ≠ 0) :
    calculateSimilarity p nb fb ref (deg.gain g) w pc mapper sw = calculateSimilarity p nb fb ref deg w pc mapper sw := by
  unfold calculateSimilarity
  rw [scale_gain ref deg hg ((rms_pos_iff _).mpr hd)]

example : (0 : ℝ) < 1 / 2 ∧ ∃ x ∈ (⟨[0, 1], 16000⟩ : AudioSignal ℝ).data, x ≠ 0 := ⟨by norm_num, 1, by simp, by simp⟩

end Visqol
