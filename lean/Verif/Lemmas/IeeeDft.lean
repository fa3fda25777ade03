import Verif.Num.Accurate
import Verif.Lemmas.DftNorm
import Verif.Lemmas.IeeeLag
import Verif.Lemmas.IeeeSum

/-! # Floating point: the wrappers around the transforms are accurate in the Euclidean norm -/

set_option linter.unusedSectionVars false

namespace Visqol
open Ieee
open Finset (range)
variable {F : Type} [Flt F] [Ieee F]

/-- The finite values of a list. -/
def Vals (s : List F) (xs : List ℝ) : Prop := s.map val = xs.map .fin

/-- A list of numbers as a sequence of complex numbers, zero outside. -/
noncomputable def seqC (xs : List ℝ) (n : ℕ) : ℂ := ((xs.getD n 0 : ℝ) : ℂ)

theorem Vals.length {s : List F} {xs : List ℝ} (h : Vals s xs) : s.length = xs.length := by
  have := congrArg List.length h; simpa using this

theorem Vals.get {s : List F} {xs : List ℝ} (h : Vals s xs) {n : ℕ} (hn : n < s.length) : Is s[n] (xs.getD n 0) := by
  have h1 := congrArg (fun l => l[n]?) h
  have hn' : n < xs.length := h.length ▸ hn
  simp only [List.getElem?_map, List.getElem?_eq_getElem hn, List.getElem?_eq_getElem hn', Option.map_some, Option.some.injEq] at h1
  show val s[n] = _
  rw [h1, List.getD_eq_getElem?_getD, List.getElem?_eq_getElem hn', Option.getD_some]

theorem Vals.of_get {s : List F} {xs : List ℝ} (hl : s.length = xs.length) (h : ∀ (n : ℕ) (hn : n < s.length), Is s[n] (xs.getD n 0)) :
    Vals s xs := by
  unfold Vals
  apply List.ext_getElem
  · simpa using hl
  intro n h1 h2
  have hn : n < s.length := by simpa using h1
  have hn' : n < xs.length := hl ▸ hn
  rw [List.getElem_map, List.getElem_map]
  have := h n hn
  rw [List.getD_eq_getElem?_getD, List.getElem?_eq_getElem hn', Option.getD_some] at this
  exact this

theorem Vals.resize {s : List F} {xs : List ℝ} (h : Vals s xs) {N : ℕ} (hl : s.length ≤ N) : Vals (resize s N 0.0) (Visqol.resize xs N 0) := by
  have hx := h.length
  unfold Vals at *
  rw [resize_of_le hl, resize_of_le (hx ▸ hl), List.map_append, List.map_append, h, List.map_replicate, List.map_replicate, hx, val_0]

theorem Vals.append_zeros {s : List F} {xs : List ℝ} (h : Vals s xs) (k : ℕ) :
    Vals (s ++ List.replicate k 0.0) (xs ++ List.replicate k 0) := by
  unfold Vals at *
  rw [List.map_append, List.map_append, h, List.map_replicate, List.map_replicate, val_0]

theorem seqC_append_zeros (xs : List ℝ) (k : ℕ) : seqC (xs ++ List.replicate k 0) = seqC xs := by
  funext n
  unfold seqC
  congr 1
  simp only [List.getD]
  by_cases hn : n < xs.length
  · rw [List.getElem?_append_left hn]
  · rw [List.getElem?_append_right (by omega), List.getElem?_eq_none (by omega : xs.length ≤ n), List.getElem?_replicate]
    split <;> rfl

theorem seqC_resize (xs : List ℝ) {N : ℕ} (h : xs.length ≤ N) : seqC (resize xs N 0) = seqC xs := by
  rw [resize_of_le h, seqC_append_zeros]

theorem seqC_beyond (xs : List ℝ) {n : ℕ} (h : xs.length ≤ n) : seqC xs n = 0 := by
  unfold seqC
  rw [List.getD, List.getElem?_eq_none h]; simp

theorem norm_seqC (xs : List ℝ) (n : ℕ) : ‖seqC xs n‖ = |xs.getD n 0| := by
  unfold seqC; rw [Complex.norm_real, Real.norm_eq_abs]

/-- A negligible number (well above the underflow threshold). -/
noncomputable def tau : ℝ := 1 / 2 ^ 400

theorem tau_pos : 0 < tau := by unfold tau; positivity

theorem tau_le : tau ≤ 1 / 2 ^ 200 := by
  unfold tau
  exact one_div_le_one_div_of_le (by positivity) (two_pow_mono (by norm_num))

theorem rnd_tau (F : Type) [Flt F] [Ieee F] {x : ℝ} (hx : |x| ≤ 2 ^ 200) : ∃ y, rnd F x = .fin y ∧ |y - x| ≤ |x| / 2 ^ 52 + tau := by
  obtain ⟨y, hy, he⟩ := rnd_acc (F := F) x (hx.trans (two_pow_mono (by norm_num)))
  exact ⟨y, hy, he.trans (add_le_add le_rfl (tiny_le_pow (by norm_num)))⟩

theorem fft_nrm {N : ℕ} (hN : 1 ≤ N) {e x : ℕ → ℂ}
    (h : ∑ k ∈ range N, ‖e k‖ ^ 2 ≤ N * (∑ n ∈ range N, ‖x n‖ ^ 2) / 2 ^ 80 + 1 / 2 ^ 800) :
    nrm N e ≤ Real.sqrt N * (nrm N x + 1) / 2 ^ 40 := by
  have h0 := nrm_nonneg N x
  have hs1 : 1 ≤ Real.sqrt N := Real.one_le_sqrt.mpr (by exact_mod_cast hN)
  have hsq : Real.sqrt N ^ 2 = N := Real.sq_sqrt (Nat.cast_nonneg _)
  refine Real.sqrt_le_iff.mpr ⟨by positivity, h.trans ?_⟩
  rw [← nrm_sq, div_pow, mul_pow, hsq, ← pow_mul]
  have ht : (1 : ℝ) / 2 ^ 800 ≤ 1 / 2 ^ 80 := one_div_le_one_div_of_le (by positivity) (two_pow_mono (by norm_num))
  have hN1 : (1 : ℝ) ≤ N := by exact_mod_cast hN
  refine (add_le_add le_rfl ht).trans ?_
  rw [← add_div]
  refine div_le_div_of_nonneg_right ?_ (by positivity)
  nlinarith [mul_nonneg (by linarith : (0:ℝ) ≤ N) h0]

variable [RustFft F] [AccurateFft F]

/-- `forward_1d_from_matrix` is accurate. -/
theorem forward1d_acc {m : FftManager} {s : List F} {xs : List ℝ} (hv : Vals s xs) (hl : s.length ≤ m.fftSize) (h1 : 1 ≤ m.fftSize)
    (h40 : m.fftSize ≤ 2 ^ 40) (hA : nrm m.fftSize (seqC xs) ≤ 2 ^ 100) :
    ∃ Y, CVals (forward1d m s) Y ∧
      nrm m.fftSize (fun k => Y k - dft m.fftSize (-1) (seqC xs) k) ≤ Real.sqrt m.fftSize * (nrm m.fftSize (seqC xs) + 1) / 2 ^ 40 := by
  have hll : ((resize s m.fftSize (0.0 : F)).map Cpx.ofRe).length = m.fftSize := by simp [resize_length]
  have hres := hv.resize hl
  have hcv : CVals ((resize s m.fftSize (0.0 : F)).map Cpx.ofRe) (seqC xs) := by
    intro n hn
    have hn' : n < (resize s m.fftSize (0.0 : F)).length := by simpa using hn
    rw [List.getElem_map, ← seqC_resize xs (N := m.fftSize) (hv.length ▸ hl)]
    unfold seqC
    rw [Complex.ofReal_re, Complex.ofReal_im]
    exact ⟨hres.get hn', val_0⟩
  obtain ⟨Y, hY, hE⟩ := AccurateFft.forward_acc _ _ hcv (by rw [hll]; exact h40) (by
    intro n hn
    rw [hll] at hn
    exact ((le_nrm _ hn).trans hA).trans (two_pow_mono (by norm_num)))
  rw [hll] at hE
  exact ⟨Y, hY, fft_nrm h1 hE⟩

/-- The size of the computed transform. -/
theorem nrm_forward {N : ℕ} (hN : 1 ≤ N) {Y x : ℕ → ℂ}
    (h : nrm N (fun k => Y k - dft N (-1) x k) ≤ Real.sqrt N * (nrm N x + 1) / 2 ^ 40) :
    nrm N Y ≤ Real.sqrt N * ((1 + 1 / 2 ^ 40) * (nrm N x + 1)) := by
  have h1 := nrm_le_add_sub N Y (dft N (-1) x)
  rw [parseval_fwd (by omega)] at h1
  have h2 := Real.sqrt_nonneg (N : ℝ)
  have h3 := nrm_nonneg N x
  generalize Real.sqrt (N : ℝ) = r at *
  generalize nrm N x = A at *
  have e : r * ((1 + 1 / 2 ^ 40) * (A + 1)) = r * (A + 1) / 2 ^ 40 + r * A + r := by ring
  rw [e]
  linarith

/-- `inverse_1d` is accurate. -/
theorem inverse1d_acc {m : FftManager} {freq : List (Cpx F)} {Z : ℕ → ℂ} (hv : CVals freq Z) (hl : freq.length = m.fftSize)
    (h1 : 1 ≤ m.fftSize) (h40 : m.fftSize ≤ 2 ^ 40) (hs : m.samplesPerChannel ≤ m.fftSize) (hZ : nrm m.fftSize Z ≤ 2 ^ 130) :
    ∃ t us, inverse1d m freq = .ok t ∧ t.length = m.samplesPerChannel ∧ Vals t us ∧
      nrm m.samplesPerChannel (fun n => seqC us n - (((dft m.fftSize 1 Z n).re / m.fftSize : ℝ) : ℂ))
        ≤ 9 / 8 * (nrm m.fftSize Z + 1) / (2 ^ 40 * Real.sqrt m.fftSize) := by
  obtain ⟨Y, hY, hE⟩ := AccurateFft.inverse_acc freq Z hv (by rw [hl]; exact h40) (by
    intro n hn
    rw [hl] at hn
    exact ((le_nrm _ hn).trans hZ).trans (two_pow_mono (by norm_num)))
  rw [hl] at hE
  have hD := fft_nrm h1 hE
  have hYl : (RustFft.inverse freq).length = m.fftSize := by rw [RustFft.length_inverse, hl]
  unfold inverse1d
  rw [if_neg (by simp [hl])]
  dsimp only
  rw [if_pos (by rw [List.length_map, hYl]; exact hs)]
  generalize hNN : m.fftSize = N at *
  generalize hSS : m.samplesPerChannel = S at *
  have hN : (1 : ℝ) ≤ N := by exact_mod_cast h1
  have hN40 : (N : ℝ) ≤ 2 ^ 40 := by exact_mod_cast h40
  have hr1 : 1 ≤ Real.sqrt N := Real.one_le_sqrt.mpr hN
  have hsq : Real.sqrt N * Real.sqrt N = N := Real.mul_self_sqrt (Nat.cast_nonneg _)
  have hZ0 := nrm_nonneg N Z
  -- size of the transform
  have hYn : nrm N Y ≤ Real.sqrt N * (2 * (nrm N Z + 1)) := by
    have g1 := nrm_le_add_sub N Y (dft N 1 Z)
    rw [parseval_inv (by omega)] at g1
    have g2 : nrm N (fun k => Y k - dft N 1 Z k) ≤ Real.sqrt N * (nrm N Z + 1) := hD.trans (by
      rw [div_le_iff₀ (by positivity)]
      have : 0 ≤ Real.sqrt N * (nrm N Z + 1) := by positivity
      nlinarith)
    nlinarith
  have hYb : nrm N Y ≤ 2 ^ 190 := by
    have g1 : Real.sqrt N ≤ 2 ^ 40 := by
      calc Real.sqrt N ≤ N := by nlinarith
        _ ≤ 2 ^ 40 := hN40
    have g2 : 2 * (nrm N Z + 1) ≤ 2 ^ 132 := by
      have : (1 : ℝ) ≤ 2 ^ 130 := one_le_pow₀ (by norm_num)
      have e : (2 : ℝ) ^ 132 = 4 * 2 ^ 130 := by rw [show (132 : ℕ) = 2 + 130 from rfl, pow_add]; norm_num
      rw [e]; linarith
    calc nrm N Y ≤ Real.sqrt N * (2 * (nrm N Z + 1)) := hYn
      _ ≤ 2 ^ 40 * 2 ^ 132 := mul_le_mul g1 g2 (by positivity) (by positivity)
      _ = 2 ^ 172 := by rw [← pow_add]
      _ ≤ 2 ^ 190 := two_pow_mono (by norm_num)
  -- the scale
  have hNat : Is (Flt.ofNat N : F) N := val_nat (h40.trans (by norm_num))
  have hinv : |1 / (N : ℝ)| ≤ 1 := by
    rw [abs_of_nonneg (by positivity), div_le_one (by linarith)]; exact hN
  obtain ⟨σ, hσ, hσe⟩ := rnd_tau F (x := 1 / (N : ℝ)) (hinv.trans (one_le_pow₀ (by norm_num)))
  have hscale : Is ((1.0 : F) / Flt.ofNat N) σ := by
    show val _ = _
    rw [Is.div val_1 hNat (by linarith)]; exact hσ
  have htau := tau_pos
  have htau2 := tau_le
  rw [abs_of_nonneg (by positivity : (0 : ℝ) ≤ 1 / N)] at hσe
  -- one output sample
  have hcell : ∀ n < N, ∃ u, rnd F ((Y n).re * σ) = .fin u ∧ |u - (Y n).re / N| ≤ 1 / 2 ^ 50 / N * ‖Y n‖ + 1 / 2 ^ 150 := by
    intro n hn
    have hb : |(Y n).re| ≤ ‖Y n‖ := Complex.abs_re_le_norm _
    have hb2 : ‖Y n‖ ≤ 2 ^ 190 := (le_nrm Y hn).trans hYb
    have hb0 := norm_nonneg (Y n)
    have hσb : |σ| ≤ 2 / N + tau := by
      have g := abs_add_le (σ - 1 / N) (1 / (N : ℝ))
      rw [sub_add_cancel, abs_of_nonneg (by positivity : (0 : ℝ) ≤ 1 / N)] at g
      have g2 : 1 / (N : ℝ) / 2 ^ 52 ≤ 1 / N := div_le_self (by positivity) (by norm_num)
      have e : 2 / (N : ℝ) = 1 / N + 1 / N := by ring
      rw [e]; linarith
    have hσ3 : |σ| ≤ 3 := by
      have : 2 / (N : ℝ) ≤ 2 := div_le_self (by norm_num) hN
      have : (1 : ℝ) / 2 ^ 200 ≤ 1 := by rw [div_le_one (by positivity)]; exact one_le_pow₀ (by norm_num)
      linarith
    have hprod : |(Y n).re * σ| ≤ 2 ^ 200 := by
      rw [abs_mul]
      calc |(Y n).re| * |σ| ≤ 2 ^ 190 * 2 ^ 2 := mul_le_mul (hb.trans hb2) (hσ3.trans (by norm_num)) (abs_nonneg _) (by positivity)
        _ = 2 ^ 192 := by rw [← pow_add]
        _ ≤ 2 ^ 200 := two_pow_mono (by norm_num)
    obtain ⟨u, hu, hue⟩ := rnd_tau F hprod
    refine ⟨u, hu, ?_⟩
    have g1 : |u - (Y n).re / N| ≤ |u - (Y n).re * σ| + |(Y n).re * (σ - 1 / N)| := by
      have := abs_add_le (u - (Y n).re * σ) ((Y n).re * (σ - 1 / N))
      refine le_trans (le_of_eq ?_) this
      congr 1; ring
    have g2 : |(Y n).re * (σ - 1 / N)| ≤ ‖Y n‖ * (1 / N / 2 ^ 52 + tau) := by
      rw [abs_mul]
      exact mul_le_mul hb hσe (abs_nonneg _) hb0
    have g3 : |(Y n).re * σ| / 2 ^ 52 ≤ ‖Y n‖ * (2 / N + tau) / 2 ^ 52 := by
      rw [abs_mul]
      exact div_le_div_of_nonneg_right (mul_le_mul hb hσb (abs_nonneg _) hb0) (by positivity)
    have g4 : ‖Y n‖ * tau ≤ 1 / 2 ^ 200 := by
      calc ‖Y n‖ * tau ≤ 2 ^ 190 * tau := mul_le_mul_of_nonneg_right hb2 htau.le
        _ = 1 / 2 ^ 210 := by
            unfold tau
            rw [show (400 : ℕ) = 190 + 210 from rfl, pow_add]
            field_simp
        _ ≤ 1 / 2 ^ 200 := one_div_le_one_div_of_le (by positivity) (two_pow_mono (by norm_num))
    have e1 : ‖Y n‖ * (1 / N / 2 ^ 52 + tau) = ‖Y n‖ / N / 2 ^ 52 + ‖Y n‖ * tau := by ring
    have e2 : ‖Y n‖ * (2 / N + tau) / 2 ^ 52 = 2 * (‖Y n‖ / N / 2 ^ 52) + ‖Y n‖ * tau / 2 ^ 52 := by ring
    have e3 : 1 / 2 ^ 50 / N * ‖Y n‖ = 4 * (‖Y n‖ / N / 2 ^ 52) := by
      rw [show (2 : ℝ) ^ 52 = 4 * 2 ^ 50 by norm_num]; field_simp
    have g5 : ‖Y n‖ * tau / 2 ^ 52 ≤ ‖Y n‖ * tau := div_le_self (mul_nonneg hb0 htau.le) (one_le_pow₀ (by norm_num))
    have g6 : 0 ≤ ‖Y n‖ / N / 2 ^ 52 := by positivity
    rw [e1] at g2
    rw [e2] at g3
    rw [e3]
    have g7 : 3 * (1 / (2 : ℝ) ^ 200) ≤ 1 / 2 ^ 150 := by norm_num
    generalize ‖Y n‖ / N / 2 ^ 52 = p at *
    generalize ‖Y n‖ * tau = q at *
    generalize (1 : ℝ) / 2 ^ 200 = w at *
    generalize (1 : ℝ) / 2 ^ 150 = w' at *
    linarith only [g1, g2, g3, g4, g5, g6, g7, hue, htau2]
  choose! u hu hue using hcell
  refine ⟨_, (List.range S).map u, rfl, ?_, ?_, ?_⟩
  · rw [List.length_take, List.length_map, hYl]; omega
  · refine Vals.of_get ?_ ?_
    · rw [List.length_take, List.length_map, hYl, List.length_map, List.length_range]; omega
    · intro n hn
      have hnS : n < S := by
        rw [List.length_take] at hn; omega
      rw [List.getElem_take, List.getElem_map, List.getD_eq_getElem?_getD, List.getElem?_map, List.getElem?_range hnS]
      simp only [Option.map_some, Option.getD_some]
      show val _ = _
      have hY' := (hY n (by rw [hYl]; omega)).1
      rw [Is.mul (show Is _ _ from hY') hscale]
      exact hu n (by omega)
  · have hseq : ∀ n < S, seqC ((List.range S).map u) n = ((u n : ℝ) : ℂ) := by
      intro n hn
      unfold seqC
      rw [List.getD_eq_getElem?_getD, List.getElem?_map, List.getElem?_range hn]; rfl
    have k1 : nrm S (fun n => seqC ((List.range S).map u) n - (((dft N 1 Z n).re / N : ℝ) : ℂ)) ≤
        nrm S (fun n => ((u n : ℝ) : ℂ) - (((Y n).re / N : ℝ) : ℂ)) + nrm S (fun n => (((Y n).re / N : ℝ) : ℂ) - (((dft N 1 Z n).re / N : ℝ) : ℂ)) := by
      refine le_trans (le_of_eq (nrm_congr fun n hn => ?_)) (nrm_triangle S _ _ _)
      rw [hseq n hn]
    have k2 : nrm S (fun n => ((u n : ℝ) : ℂ) - (((Y n).re / N : ℝ) : ℂ)) ≤ 1 / 2 ^ 50 / N * nrm N Y + 1 / 2 ^ 150 * Real.sqrt N := by
      refine (nrm_mono_len _ hs).trans (nrm_le_mul_add (by positivity) (by positivity) fun n hn => ?_)
      rw [← Complex.ofReal_sub, Complex.norm_real, Real.norm_eq_abs]
      exact hue n hn
    have k3 : nrm S (fun n => (((Y n).re / N : ℝ) : ℂ) - (((dft N 1 Z n).re / N : ℝ) : ℂ)) ≤ 1 / N * nrm N (fun k => Y k - dft N 1 Z k) := by
      refine (nrm_mono_len _ hs).trans (nrm_le_mul (by positivity) fun n hn => ?_)
      rw [← Complex.ofReal_sub, Complex.norm_real, Real.norm_eq_abs, ← sub_div, abs_div, abs_of_nonneg (by positivity : (0 : ℝ) ≤ N),
        div_eq_mul_one_div, mul_comm, ← Complex.sub_re]
      exact mul_le_mul_of_nonneg_left (Complex.abs_re_le_norm _) (by positivity)
    refine k1.trans ((add_le_add k2 k3).trans ?_)
    have hD' : nrm N (fun k => Y k - dft N 1 Z k) ≤ Real.sqrt N * (nrm N Z + 1) / 2 ^ 40 := hD
    generalize nrm N (fun k => Y k - dft N 1 Z k) = d at *
    generalize nrm N Y = yy at *
    generalize nrm N Z = A at *
    clear k1 k2 k3 hue hu hseq hE hZ hYb hσe hσ hscale hinv htau htau2
    have hr0 : 0 < Real.sqrt N := by linarith
    generalize Real.sqrt (N : ℝ) = r at *
    have hrb : r ≤ 2 ^ 20 := by nlinarith
    have hNr : (N : ℝ) = r * r := hsq.symm
    rw [hNr]
    have j1 : 1 / 2 ^ 50 / (r * r) * yy ≤ 1 / 2 ^ 50 * (2 * (A + 1)) / r := by
      calc 1 / 2 ^ 50 / (r * r) * yy ≤ 1 / 2 ^ 50 / (r * r) * (r * (2 * (A + 1))) := mul_le_mul_of_nonneg_left hYn (by positivity)
        _ = 1 / 2 ^ 50 * (2 * (A + 1)) / r := by field_simp
    have j2 : 1 / (r * r) * d ≤ (A + 1) / 2 ^ 40 / r := by
      calc 1 / (r * r) * d ≤ 1 / (r * r) * (r * (A + 1) / 2 ^ 40) := mul_le_mul_of_nonneg_left hD' (by positivity)
        _ = (A + 1) / 2 ^ 40 / r := by field_simp
    have j3 : 1 / 2 ^ 150 * r ≤ 1 / 2 ^ 100 / r := by
      rw [le_div_iff₀ hr0]
      calc 1 / 2 ^ 150 * r * r ≤ 1 / 2 ^ 150 * 2 ^ 20 * 2 ^ 20 := by gcongr
        _ ≤ 1 / 2 ^ 100 := by norm_num
    have e : 9 / 8 * (A + 1) / (2 ^ 40 * r) = (9 / 8 * (A + 1) / 2 ^ 40) / r := by field_simp
    rw [e]
    refine (add_le_add (add_le_add j1 j3) j2).trans ?_
    rw [← add_div, ← add_div]
    refine div_le_div_of_nonneg_right ?_ hr0.le
    norm_num
    linarith

end Visqol
