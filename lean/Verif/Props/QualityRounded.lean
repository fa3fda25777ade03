import Verif.Lemmas.IeeeQuality
import Verif.Props.Mapping
import Verif.Props.LoadingIeee

/-! # From similarity to quality in wideband mode, in floating point: C03, C04, C68 -/

set_option linter.unusedSectionVars false

namespace Visqol
open Ieee

variable {F : Type} [Flt F] [Ieee F] [Libm F] [RustFft F]

/-- Every reported band similarity is a number of moderate size (as C74 shows for ordinary comparisons). -/
def ModerateSimilarities (res : SimilarityResult F) : Prop := ∀ a ∈ res.fvnsim, ∃ x, val a = .fin x ∧ |x| ≤ 2 ^ 18

theorem result_near {p : Profile} {s : Bool} {m m' : Manager F} {ref deg : AudioSignal F} {res : SimilarityResult F}
    (hm : m.mapper = .speech s) (hnb : m.numBands ≤ 32) (h : m.computeResults p ref deg = .ok (m', res)) (hf : ModerateSimilarities res) :
    ∃ y z, val res.vnsim = .fin y ∧ val res.moslqo = .fin z ∧ 1 ≤ z ∧ z ≤ 5 ∧
      if Flt.lt res.vnsim 0.15 then z = 1 else |z - fitMos s y| ≤ 3 / 1000000 := by
  have hl := (C05_shapes h).1
  obtain ⟨al, lag, _, ⟨st⟩⟩ := computeResults_stages h
  obtain ⟨q, h1, h2⟩ := st.mos
  have hv := st.vn
  unfold meanOpt at hv
  split at hv
  · cases hv
  · rename_i hne
    have h0 : 0 < res.fvnsim.length := List.length_pos_iff.mpr hne
    obtain ⟨y, hy, hyq⟩ := quality_near s hf h0 (by omega)
    rw [hm] at h1
    cases h1
    have hvn : res.vnsim = Flt.sum res.fvnsim / Flt.ofNat res.fvnsim.length := (Option.some.inj hv).symm
    rw [← hvn] at hy
    rw [h2]
    unfold alterForSimilarityExtremes
    by_cases hlt : Flt.lt res.vnsim 0.15 = true
    · rw [if_pos hlt]
      refine ⟨y, 1, hy, val_1, le_rfl, by norm_num, ?_⟩
      rw [if_pos hlt]
    · rw [if_neg hlt]
      obtain ⟨c, hc, hce⟩ := lit_near (F := F) (m := 15) (e := 2) (x := 15 / 100) (by norm_num) (by norm_num) (by norm_num)
      have hc0 := (abs_le.mp hce).1
      have hy0 : 0 ≤ y := by
        rw [Is.lt hy hc] at hlt
        have : ¬ y < c := by simpa using hlt
        norm_num at *; linarith
      obtain ⟨z, hz, hze⟩ := hyq hy0
      have hz15 : 1 ≤ z ∧ z ≤ 5 := by
        have hz' : val (Flt.clamp (exponentialFromFit (Flt.iterSum res.fvnsim / Flt.ofNat res.fvnsim.length)
          1.1559455 4.6851153 0.7655232 * (if s then 1.2031409 else 1.0)) 1.0 5.0) = .fin z := hz
        rcases clamp_val (exponentialFromFit (Flt.iterSum res.fvnsim / Flt.ofNat res.fvnsim.length)
          1.1559455 4.6851153 0.7655232 * (if s then 1.2031409 else 1.0) : F) with k | ⟨u, k, k1, k2⟩
        · rw [hz'] at k; cases k
        · rw [hz'] at k; cases k; exact ⟨k1, k2⟩
      refine ⟨y, z, hy, hz, hz15.1, hz15.2, ?_⟩
      rw [if_neg hlt]
      exact hze

/-- C68, floating point: the wideband MOS is exactly 1 if the reported `vnsim` is below the literal 0.15, and otherwise within three millionths
of the documented exponential of the reported `vnsim`, scaled as asked and limited to 1..5. -/
theorem C68_wideband_rounded {p : Profile} {s : Bool} {m m' : Manager F} {ref deg : AudioSignal F} {res : SimilarityResult F}
    (hm : m.mapper = .speech s) (hnb : m.numBands ≤ 32) (h : m.computeResults p ref deg = .ok (m', res)) (hf : ModerateSimilarities res) :
    ∃ y z : ℝ, val res.vnsim = .fin y ∧ val res.moslqo = .fin z ∧
      if Flt.lt res.vnsim 0.15 then z = 1
      else |z - max 1 (min 5 ((11559455 / 10 ^ 7 + Real.exp (46851153 / 10 ^ 7 * (y - 7655232 / 10 ^ 7))) *
        (if s then 12031409 / 10 ^ 7 else 1)))| ≤ 3 / 1000000 := by
  obtain ⟨y, z, h1, h2, _, _, h3⟩ := result_near hm hnb h hf
  exact ⟨y, z, h1, h2, h3⟩

theorem fitMos_mono (s : Bool) {x y : ℝ} (h : x ≤ y) : fitMos s x ≤ fitMos s y := by
  unfold fitMos
  have := Real.exp_le_exp.mpr (show 46851153 / 10 ^ 7 * (x - 7655232 / 10 ^ 7) ≤ 46851153 / 10 ^ 7 * (y - 7655232 / 10 ^ 7) by norm_num; linarith)
  refine max_le_max le_rfl (min_le_min le_rfl (mul_le_mul_of_nonneg_right (by linarith) ?_))
  split <;> norm_num

theorem fitMos_scaled (x : ℝ) : fitMos false x ≤ fitMos true x := by
  unfold fitMos
  have := Real.exp_pos (46851153 / 10 ^ 7 * (x - 7655232 / 10 ^ 7))
  exact max_le_max le_rfl (min_le_min le_rfl (mul_le_mul_of_nonneg_left (by norm_num) (by positivity)))

/-- Two results, related by their similarities. -/
theorem results_related {p₁ p₂ : Profile} {s₁ s₂ : Bool} {m₁ m₁' m₂ m₂' : Manager F} {ref₁ deg₁ ref₂ deg₂ : AudioSignal F}
    {r₁ r₂ : SimilarityResult F} (hm₁ : m₁.mapper = .speech s₁) (hm₂ : m₂.mapper = .speech s₂) (hb₁ : m₁.numBands ≤ 32) (hb₂ : m₂.numBands ≤ 32)
    (h₁ : m₁.computeResults p₁ ref₁ deg₁ = .ok (m₁', r₁)) (h₂ : m₂.computeResults p₂ ref₂ deg₂ = .ok (m₂', r₂))
    (hf₁ : ModerateSimilarities r₁) (hf₂ : ModerateSimilarities r₂) {x₁ x₂ : ℝ} (hx₁ : val r₁.vnsim = .fin x₁) (hx₂ : val r₂.vnsim = .fin x₂)
    (h : x₁ ≤ x₂) (hs : ∀ x, fitMos s₁ x ≤ fitMos s₂ x) :
    ∃ z₁ z₂, val r₁.moslqo = .fin z₁ ∧ val r₂.moslqo = .fin z₂ ∧ z₁ ≤ z₂ + 6 / 1000000 := by
  obtain ⟨y₁, z₁, a1, a2, a3, a4, a5⟩ := result_near hm₁ hb₁ h₁ hf₁
  obtain ⟨y₂, z₂, b1, b2, b3, b4, b5⟩ := result_near hm₂ hb₂ h₂ hf₂
  rw [hx₁] at a1; cases a1
  rw [hx₂] at b1; cases b1
  refine ⟨z₁, z₂, a2, b2, ?_⟩
  obtain ⟨c, hc, _⟩ := lit_near (F := F) (m := 15) (e := 2) (x := 15 / 100) (by norm_num) (by norm_num) (by norm_num)
  rw [Is.lt hx₁ hc] at a5
  rw [Is.lt hx₂ hc] at b5
  by_cases h1 : x₁ < c
  · rw [decide_eq_true h1, if_pos rfl] at a5
    linarith
  · rw [decide_eq_false h1, if_neg (by simp)] at a5
    rw [decide_eq_false (by linarith), if_neg (by simp)] at b5
    have k1 := (abs_le.mp a5).2
    have k2 := (abs_le.mp b5).1
    have k3 := fitMos_mono s₂ h
    have k4 := hs x₁
    linarith

/-- C03, floating point: of two wideband results with the same scaling option, the one with the larger `vnsim` does not have a MOS
smaller by more than six millionths. -/
theorem C03_monotone_rounded {p₁ p₂ : Profile} {s : Bool} {m₁ m₁' m₂ m₂' : Manager F} {ref₁ deg₁ ref₂ deg₂ : AudioSignal F}
    {r₁ r₂ : SimilarityResult F} (hm₁ : m₁.mapper = .speech s) (hm₂ : m₂.mapper = .speech s) (hb₁ : m₁.numBands ≤ 32) (hb₂ : m₂.numBands ≤ 32)
    (h₁ : m₁.computeResults p₁ ref₁ deg₁ = .ok (m₁', r₁)) (h₂ : m₂.computeResults p₂ ref₂ deg₂ = .ok (m₂', r₂))
    (hf₁ : ModerateSimilarities r₁) (hf₂ : ModerateSimilarities r₂) {x₁ x₂ : ℝ} (hx₁ : val r₁.vnsim = .fin x₁) (hx₂ : val r₂.vnsim = .fin x₂)
    (h : x₁ ≤ x₂) : ∃ z₁ z₂, val r₁.moslqo = .fin z₁ ∧ val r₂.moslqo = .fin z₂ ∧ z₁ ≤ z₂ + 6 / 1000000 :=
  results_related hm₁ hm₂ hb₁ hb₂ h₁ h₂ hf₁ hf₂ hx₁ hx₂ h fun _ => le_rfl

/-- C03, floating point: with equal similarity the scaled MOS is not below the unscaled one by more than six millionths. -/
theorem C03_scaled_rounded {p₁ p₂ : Profile} {m₁ m₁' m₂ m₂' : Manager F} {ref₁ deg₁ ref₂ deg₂ : AudioSignal F}
    {r₁ r₂ : SimilarityResult F} (hm₁ : m₁.mapper = .speech false) (hm₂ : m₂.mapper = .speech true) (hb₁ : m₁.numBands ≤ 32) (hb₂ : m₂.numBands ≤ 32)
    (h₁ : m₁.computeResults p₁ ref₁ deg₁ = .ok (m₁', r₁)) (h₂ : m₂.computeResults p₂ ref₂ deg₂ = .ok (m₂', r₂))
    (hf₁ : ModerateSimilarities r₁) (hf₂ : ModerateSimilarities r₂) {x : ℝ} (hx₁ : val r₁.vnsim = .fin x) (hx₂ : val r₂.vnsim = .fin x) :
    ∃ z₁ z₂, val r₁.moslqo = .fin z₁ ∧ val r₂.moslqo = .fin z₂ ∧ z₁ ≤ z₂ + 6 / 1000000 :=
  results_related hm₁ hm₂ hb₁ hb₂ h₁ h₂ hf₁ hf₂ hx₁ hx₂ le_rfl fitMos_scaled

/-- The fit near 1. -/
theorem fit_near_one {y : ℝ} (h : |y - 1| ≤ 1 / 10000) :
    29982 / 10000 ≤ Real.exp (46851153 / 10 ^ 7 * (y - 7655232 / 10 ^ 7)) ∧
      Real.exp (46851153 / 10 ^ 7 * (y - 7655232 / 10 ^ 7)) ≤ 3003 / 1000 := by
  obtain ⟨h1, h2⟩ := abs_le.mp h
  have hb : 29998 / 10000 < Real.exp (1716485692461 / 1562500000000) ∧ Real.exp (1716485692461 / 1562500000000) < 29999 / 10000 := by
    have hb := exp_fit_bounds
    norm_num at hb ⊢
    exact hb
  have e : Real.exp (46851153 / 10 ^ 7 * (y - 7655232 / 10 ^ 7)) = Real.exp (1716485692461 / 1562500000000) *
      Real.exp (46851153 / 10 ^ 7 * (y - 1)) := by
    rw [← Real.exp_add]; congr 1; norm_num; ring
  have hl := Real.add_one_le_exp (46851153 / 10 ^ 7 * (y - 1))
  have hu := Real.add_one_le_exp (-(46851153 / 10 ^ 7 * (y - 1)))
  rw [Real.exp_neg] at hu
  have hp := Real.exp_pos (46851153 / 10 ^ 7 * (y - 1))
  have hlt : 9995 / 10000 ≤ Real.exp (46851153 / 10 ^ 7 * (y - 1)) := by refine le_trans ?_ hl; norm_num; linarith
  have hut : Real.exp (46851153 / 10 ^ 7 * (y - 1)) ≤ 1001 / 1000 := by
    have h3 : 1 / (1001 / 1000) ≤ (Real.exp (46851153 / 10 ^ 7 * (y - 1)))⁻¹ := by refine le_trans ?_ hu; norm_num; linarith
    rw [← one_div] at h3
    exact (one_div_le_one_div (by norm_num) hp).mp h3
  rw [e]
  generalize Real.exp (46851153 / 10 ^ 7 * (y - 1)) = g at *
  generalize Real.exp (1716485692461 / 1562500000000) = f at *
  obtain ⟨f1, f2⟩ := hb
  constructor
  · have := mul_le_mul f1.le hlt (by norm_num) (by linarith)
    refine le_trans ?_ this
    norm_num
  · have := mul_le_mul f2.le hut hp.le (by norm_num)
    refine this.trans ?_
    norm_num

/-- C04, floating point: a comparison that reports `vnsim` within 0.0001 of 1 (as every patch compared with itself does, C08) reports a MOS
between 4.998 and 5 when scaled, between 4.154 and 4.159 when not. -/
theorem C04_result_rounded {p : Profile} {s : Bool} {m m' : Manager F} {ref deg : AudioSignal F} {res : SimilarityResult F}
    (hm : m.mapper = .speech s) (hnb : m.numBands ≤ 32) (h : m.computeResults p ref deg = .ok (m', res)) (hf : ModerateSimilarities res)
    {y : ℝ} (hy : val res.vnsim = .fin y) (h1 : |y - 1| ≤ 1 / 10000) :
    ∃ z, val res.moslqo = .fin z ∧
      if s then 4998 / 1000 ≤ z ∧ z ≤ 5 else 4154 / 1000 ≤ z ∧ z ≤ 4159 / 1000 := by
  obtain ⟨y', z, a1, a2, _, a4, a5⟩ := result_near hm hnb h hf
  rw [hy] at a1; cases a1
  refine ⟨z, a2, ?_⟩
  obtain ⟨c, hc, hce⟩ := lit_near (F := F) (m := 15) (e := 2) (x := 15 / 100) (by norm_num) (by norm_num) (by norm_num)
  have hc2 : c ≤ 1 / 2 := by
    have := (abs_le.mp hce).2
    norm_num at this; linarith
  have hy2 := (abs_le.mp h1).1
  rw [Is.lt hy hc, decide_eq_false (by norm_num at *; linarith), if_neg (by simp)] at a5
  obtain ⟨k1, k2⟩ := abs_le.mp a5
  obtain ⟨e1, e2⟩ := fit_near_one h1
  unfold fitMos at k1 k2
  generalize Real.exp (46851153 / 10 ^ 7 * (y - 7655232 / 10 ^ 7)) = E at *
  cases s
  · simp only [Bool.false_eq_true, if_false, mul_one] at *
    rw [min_eq_right (by norm_num; linarith), max_eq_right (by norm_num; linarith)] at k1 k2
    constructor <;> norm_num at * <;> linarith
  · simp only [if_true] at *
    refine ⟨?_, a4⟩
    have h3 : (499801 / 100000 : ℝ) ≤ max 1 (min 5 ((11559455 / 10 ^ 7 + E) * (12031409 / 10 ^ 7))) :=
      le_max_of_le_right (le_min (by norm_num) (by norm_num; linarith))
    linarith

/-! ## Examples -/

noncomputable def noSound : AudioSignal B64 := ⟨List.replicate 40000 0.0, 16000⟩

theorem noSound_length : noSound.data.length = 40000 := by unfold noSound; rw [List.length_replicate]

/-- 2.5 s of silence against a step at full scale, in double precision: fullband patches with the wideband mapping, `vnsim` 1. -/
theorem silent_speech_run (p : Profile) (u : Bool) : ∃ m' res, (⟨32, 60, .image 20, .speech u, FilterBank.new 32 50.0⟩ : Manager B64).computeResults p
    noSound (onset B64 1000 40000) = .ok (m', res) ∧ FiniteScores res ∧ val res.vnsim = .fin 1 := by
  have hsl : Silent noSound.data := fun a ha => by rw [List.eq_of_mem_replicate ha]; exact val_0
  have hrate : noSound.sampleRate = 16000 := rfl
  obtain ⟨m', res, h1, h2⟩ : ∃ m' res, (⟨32, 60, .image 20, .speech u, FilterBank.new 32 50.0⟩ : Manager B64).computeResults p
      noSound (onset B64 1000 40000) = .ok (m', res) ∧ FiniteScores res := by
    refine C74_fullband_finite p _ rfl (by norm_num) (by norm_num) rfl (fun v hv ha => ?_) rfl (by rw [hrate]; norm_num) (by rw [hrate]; norm_num) ?_
      (fun a ha => ⟨0, by rw [List.eq_of_mem_replicate ha]; exact val_0, by norm_num⟩) (onset_ordinary _ _) (onset_sound ?_ ?_) ?_ ?_ ?_ ?_ ?_ ?_
    · have hv : v.length = 32 := hv
      obtain ⟨y, hy, _⟩ := speechQuality_num (s := u) (n := 18) ha (by norm_num) (by intro h; rw [h] at hv; simp at hv) (by omega)
      exact ⟨_, rfl, by rw [hy]; exact fun h => by cases h⟩
    all_goals try simp only [onset_length, noSound_length, hrate]
    all_goals try unfold SmallDrift
    all_goals try unfold columnCount
    all_goals try unfold windowSamples
    all_goals norm_num
  refine ⟨m', res, h1, h2, (C47_silent_reference (ref := noSound) (deg := onset B64 1000 40000) rfl ?_ ?_ rfl ?_ ?_ ?_ ?_ ?_ ?_ hsl ?_ h1).1⟩
  all_goals try simp only [onset_length, noSound_length, hrate]
  all_goals try unfold SmallDrift
  all_goals try unfold columnCount
  all_goals try unfold windowSamples
  all_goals try norm_num
  · intro a ha
    obtain ⟨x, hx, _⟩ := onset_ordinary (F := B64) 1000 40000 a ha
    exact ⟨x, hx⟩

/-- The hypotheses of `C68_wideband_rounded` and `C04_result_rounded` (`u` scaled or not). -/
example (p : Profile) (u : Bool) : ∃ m' res, (⟨32, 60, .image 20, .speech u, FilterBank.new 32 50.0⟩ : Manager B64).computeResults p
    noSound (onset B64 1000 40000) = .ok (m', res) ∧ ∃ z, val res.moslqo = .fin z ∧
      if u then 4998 / 1000 ≤ z ∧ z ≤ 5 else 4154 / 1000 ≤ z ∧ z ≤ 4159 / 1000 := by
  obtain ⟨m', res, h1, h2, h3⟩ := silent_speech_run p u
  exact ⟨m', res, h1, C04_result_rounded rfl le_rfl h1 h2.bands h3 (by norm_num)⟩

/-- The hypotheses of `C03_scaled_rounded` and `C03_monotone_rounded`. -/
example (p : Profile) : ∃ r₁ r₂ : SimilarityResult B64, ∃ z₁ z₂, val r₁.moslqo = .fin z₁ ∧ val r₂.moslqo = .fin z₂ ∧ z₁ ≤ z₂ + 6 / 1000000 := by
  obtain ⟨m₁, r₁, h1, h2, h3⟩ := silent_speech_run p false
  obtain ⟨m₂, r₂, k1, k2, k3⟩ := silent_speech_run p true
  exact ⟨r₁, r₂, C03_scaled_rounded rfl rfl le_rfl le_rfl h1 k1 h2.bands k2.bands h3 k3⟩

end Visqol
