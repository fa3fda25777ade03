import Verif.Lemmas.Envelope
import Verif.Spec.Envelope

/-! # C56: the envelope used for alignment -/

namespace Visqol
open Finset

/-- The first half of a spectrum of even size, doubled. -/
theorem hilbertWeight_even {g len : ℕ} (h2 : 2 ≤ len) (hle : len ≤ 2 * g + 2) (f : ℕ → ℝ)
    (hsym : ∀ i, 0 < i → i < 2 * g + 2 → f (2 * g + 2 - i) = f i) :
    ∑ k ∈ range (2 * g + 2), hilbertWeight (F := ℝ) len (2 * g + 2) k * f k =
      ∑ k ∈ range (2 * g + 2), f k - Spec.missing len (2 * g + 2) * f (g + 1) := by
  rw [half_sum (g := g) (hilbertWeight (F := ℝ) len (2 * g + 2)) f]
  · congr 2
    by_cases e : len = 2 * g + 2
    · have hm : Spec.missing len (2 * g + 2) = 0 := by unfold Spec.missing; rw [if_pos (.inl e)]
      rw [hm]
      unfold hilbertWeight
      rw [if_neg (by split <;> omega), if_pos (by omega), if_neg (by omega)]
      simp
    · have hm : Spec.missing len (2 * g + 2) = 1 := by unfold Spec.missing; rw [if_neg (by omega)]
      rw [hm]
      unfold hilbertWeight
      rw [if_neg (by split <;> omega), if_neg (by omega), if_neg (by omega)]
      simp
  · intro i hi
    exact hsym (i + 1) (by omega) (by omega)
  · unfold hilbertWeight
    rw [if_neg (by omega), if_neg (by omega), if_pos rfl]; simp
  · intro i hi
    unfold hilbertWeight
    rw [if_pos (by split <;> omega)]; simp
  · intro i hi
    unfold hilbertWeight
    rw [if_neg (by split <;> omega), if_neg (by omega), if_neg (by omega)]; simp

/-- The first half of a spectrum of odd size, doubled. -/
theorem hilbertWeight_odd {g len : ℕ} (ho : len % 2 = 1) (h2 : 2 ≤ len) (hle : len ≤ 2 * g + 3) (f : ℕ → ℝ)
    (hsym : ∀ i, 0 < i → i < 2 * g + 3 → f (2 * g + 3 - i) = f i) :
    ∑ k ∈ range (2 * g + 3), hilbertWeight (F := ℝ) len (2 * g + 3) k * f k =
      ∑ k ∈ range (2 * g + 3), f k - Spec.missing len (2 * g + 3) * f (g + 1) := by
  have split : ∀ h : ℕ → ℝ, ∑ k ∈ range (2 * g + 3), h k =
      h 0 + ∑ i ∈ range g, h (i + 1) + h (g + 1) + h (g + 2) + ∑ i ∈ range g, h (g + 3 + i) := by
    intro h
    rw [show 2 * g + 3 = (g + 3) + g by ring, Finset.sum_range_add, Finset.sum_range_succ, Finset.sum_range_succ,
      Finset.sum_range_succ']
    ring
  rw [split (fun k => hilbertWeight (F := ℝ) len (2 * g + 3) k * f k), split f]
  have w0 : hilbertWeight (F := ℝ) len (2 * g + 3) 0 = 1 := by
    unfold hilbertWeight
    rw [if_neg (by omega), if_neg (by omega), if_pos rfl]; simp
  have w1 : ∑ i ∈ range g, hilbertWeight (F := ℝ) len (2 * g + 3) (i + 1) * f (i + 1) = 2 * ∑ i ∈ range g, f (i + 1) := by
    rw [Finset.mul_sum]
    refine Finset.sum_congr rfl fun i hi => ?_
    have := Finset.mem_range.mp hi
    congr 1
    unfold hilbertWeight
    rw [if_pos (by split <;> omega)]; simp
  have w3 : ∀ k, g + 2 ≤ k → k < 2 * g + 3 → hilbertWeight (F := ℝ) len (2 * g + 3) k = 0 := by
    intro k h1 h2
    unfold hilbertWeight
    rw [if_neg (by split <;> omega), if_neg (by omega), if_neg (by omega)]; simp
  have w4 : ∑ i ∈ range g, hilbertWeight (F := ℝ) len (2 * g + 3) (g + 3 + i) * f (g + 3 + i) = 0 := by
    refine Finset.sum_eq_zero fun i hi => ?_
    have := Finset.mem_range.mp hi
    rw [w3 _ (by omega) (by omega), zero_mul]
  have s1 : ∑ i ∈ range g, f (g + 3 + i) = ∑ i ∈ range g, f (i + 1) := by
    rw [← Finset.sum_range_reflect]
    refine Finset.sum_congr rfl fun i hi => ?_
    have := Finset.mem_range.mp hi
    rw [← hsym (i + 1) (by omega) (by omega)]
    congr 1; omega
  have s2 : f (g + 2) = f (g + 1) := by
    rw [← hsym (g + 1) (by omega) (by omega)]
    congr 1; omega
  have w2 : hilbertWeight (F := ℝ) len (2 * g + 3) (g + 1) = 2 - Spec.missing len (2 * g + 3) := by
    have hm : Spec.missing len (2 * g + 3) = 0 := by unfold Spec.missing; rw [if_pos (.inr (by omega))]
    rw [hm]
    unfold hilbertWeight
    rw [if_pos (by rw [if_pos ho]; omega)]; simp
  rw [w0, w1, w2, w3 (g + 2) (by omega) (by omega), w4, s1, s2]
  ring

/-- The first half of a spectrum of any size, doubled. -/
theorem hilbertWeight_half {N len : ℕ} (ho : N % 2 = 1 → len % 2 = 1) (h2 : 2 ≤ len) (hle : len ≤ N) (f : ℕ → ℝ)
    (hsym : ∀ i, 0 < i → i < N → f (N - i) = f i) :
    ∑ k ∈ range N, hilbertWeight (F := ℝ) len N k * f k = ∑ k ∈ range N, f k - Spec.missing len N * f (N / 2) := by
  rcases Nat.even_or_odd N with ⟨h, rfl⟩ | ⟨h, rfl⟩
  · obtain ⟨g, rfl⟩ : ∃ g, h = g + 1 := ⟨h - 1, by omega⟩
    rw [show g + 1 + (g + 1) = 2 * g + 2 by ring] at hle hsym ⊢
    rw [hilbertWeight_even h2 hle f hsym, show (2 * g + 2) / 2 = g + 1 by omega]
  · obtain ⟨g, rfl⟩ : ∃ g, h = g + 1 := ⟨h - 1, by omega⟩
    rw [show 2 * (g + 1) + 1 = 2 * g + 3 by ring] at hle hsym ⊢
    rw [hilbertWeight_odd (ho (by omega)) h2 hle f hsym, show (2 * g + 3) / 2 = g + 1 by omega]

theorem cosE_cos (N : ℕ) (t : ℤ) : cosE N t = Real.cos (2 * Real.pi * t / N) := by
  unfold cosE rootE
  have : (2 * Real.pi * Complex.I * (t : ℂ) / (N : ℂ)) = ((2 * Real.pi * t / N : ℝ) : ℂ) * Complex.I := by
    push_cast; ring
  rw [this, Complex.exp_ofReal_mul_I_re]

/-- What remains of a real signal after transforming, doubling one half and transforming back. -/
theorem hilbert_real {N : ℕ} (y : List ℝ) (ho : N % 2 = 1 → y.length % 2 = 1) (h2 : 2 ≤ y.length) (hle : y.length ≤ N) {t : ℕ} (ht : t < y.length) :
    (∑ k ∈ range N, hilbertWeight (F := ℝ) y.length N k *
      ∑ a ∈ range N, y.getD a 0 * cosE N (k * ((t : ℤ) - a))) / (N : ℝ) =
      y.getD t 0 - Spec.missing y.length N * Spec.highest y N t := by
  have hN : (N : ℝ) ≠ 0 := Nat.cast_ne_zero.mpr (by omega)
  rw [hilbertWeight_half ho h2 hle (fun k => ∑ a ∈ range N, y.getD a 0 * cosE N (k * ((t : ℤ) - a)))]
  · have e1 : ∑ k ∈ range N, ∑ a ∈ range N, y.getD a 0 * cosE N (k * ((t : ℤ) - a)) = y.getD t 0 * (N : ℝ) := by
      rw [Finset.sum_comm]
      simp only [← Finset.mul_sum]
      simp only [cosE_sum (show 0 < N by omega)]
      rw [Finset.sum_eq_single t]
      · simp
      · intro b hb hbt
        have hb := Finset.mem_range.mp hb
        rw [if_neg, mul_zero]
        rintro ⟨c, hc⟩
        have : c = 0 := by
          by_contra hc0
          rcases lt_or_gt_of_ne hc0 with h | h
          · have : (N : ℤ) * c ≤ -(N : ℤ) := by nlinarith
            omega
          · have : (N : ℤ) * c ≥ (N : ℤ) := by nlinarith
            omega
        rw [this] at hc; omega
      · intro h; exact absurd (Finset.mem_range.mpr (by omega)) h
    rw [e1, sub_div, mul_div_assoc, div_self hN, mul_one, mul_div_assoc]
    congr 2
    unfold Spec.highest
    congr 1
    have hsub : range y.length ⊆ range N := by
      intro a ha; simp only [Finset.mem_range] at *; omega
    rw [← Finset.sum_subset hsub]
    · refine Finset.sum_congr rfl fun a _ => ?_
      rw [cosE_cos]
      generalize N / 2 = h
      push_cast
      congr 2
      ring
    · intro a _ ha
      have : y.length ≤ a := by simpa using ha
      rw [List.getD_eq_getElem?_getD, List.getElem?_eq_none this, Option.getD_none, zero_mul]
  · intro i h0 hi
    refine Finset.sum_congr rfl fun a _ => ?_
    congr 1
    have e : ((N - i : ℕ) : ℤ) * ((t : ℤ) - a) = -((i : ℤ) * ((t : ℤ) - a)) + (N : ℤ) * ((t : ℤ) - a) := by
      rw [Nat.cast_sub (by omega)]; ring
    rw [e, cosE_add_mul (by omega), cosE_neg]

/-- C56, formula: the envelope of a signal of at least two samples has one value per sample,
`|2 (x - mean - leak) - 1e-6| + mean`; `leak` is the part of the highest frequency that the transform of padded size drops. -/
theorem C56_formula (p : Profile) (s : List ℝ) (h2 : 2 ≤ s.length) (hle : s.length ≤ 2 ^ 63) :
    ∃ r, nextPowTwo p s.length = .ok r ∧ calculateUpperEnv p s = .ok (some (Spec.envelope s (max r 32))) := by
  have hne : s ≠ [] := by intro h; subst h; simp at h2
  obtain ⟨r, hr, hr2, _⟩ := C41_next_pow_two_bounds p s.length (by omega) hle
  refine ⟨r, hr, ?_⟩
  have hlen : s.length ≤ max r 32 := by omega
  unfold calculateUpperEnv meanOpt
  rw [if_neg hne]
  simp only [real_sum, real_ofNat]
  rw [show s.sum / (s.length : ℝ) = mean s from rfl]
  unfold Spec.envelope
  generalize hy : s.map (· - mean s) = y
  have hyl : y.length = s.length := by rw [← hy]; simp
  unfold calculateHilbert FftManager.new
  rw [hyl, hr]
  simp only [ok_bind, forward1d_length]
  have h32 : 32 ≤ max r 32 := le_max_right _ _
  have hodd : max r 32 % 2 = 1 → s.length % 2 = 1 := by
    intro h
    by_contra hc
    obtain ⟨r', h3, h4⟩ := C41_even p s.length (by omega) hle (by omega)
    rw [hr] at h3
    cases h3
    omega
  generalize max r 32 = N at *
  rw [hilbertScaling_eq (by omega) hlen (by omega)]
  simp only [ok_bind]
  rw [weighted_inverse N s.length (by omega) hlen]
  simp only [ok_bind, List.map_map]
  congr 2
  apply List.map_congr_left
  intro t ht
  have ht := List.mem_range.mp ht
  simp only [Function.comp]
  rw [← hyl, hilbert_real y (by rw [hyl]; exact hodd) (by omega) (by omega) (by omega)]
  have hyt : y.getD t 0 = s.getD t 0 - mean s := by
    rw [← hy, List.getD_eq_getElem?_getD, List.getElem?_map, List.getElem?_eq_getElem ht]
    simp [List.getD_eq_getElem?_getD, List.getElem?_eq_getElem ht]
  rw [hyt]
  simp only [Cpx.norm, Cpx.ssub, Cpx.smul, Cpx.ofRe, real_hypot, real_lit0, real_lit2, zero_mul]
  rw [show (0 : ℝ) ^ 2 = 0 by norm_num, add_zero, Real.sqrt_sq_eq_abs]
  congr 2
  simp only [real_sci]
  norm_num
  ring

/-- C56: for a signal of `2^k` samples (`5 ≤ k ≤ 63`, so that the FFT size equals the length) the "upper envelope" is the
rectified signal `|2 (x - mean) - 1e-6| + mean`. -/
theorem C56_envelope (p : Profile) (s : List ℝ) (k : ℕ) (h5 : 5 ≤ k) (h63 : k ≤ 63) (hs : s.length = 2 ^ k) :
    calculateUpperEnv p s = .ok (some (s.map fun x => |2 * (x - mean s) - 1 / 1000000| + mean s)) := by
  have h32 : 32 ≤ 2 ^ k := by
    calc 32 = 2 ^ 5 := by norm_num
      _ ≤ 2 ^ k := Nat.pow_le_pow_right (by norm_num) h5
  have hr := C41_exact_on_powers p k h63
  rw [← hs] at hr
  obtain ⟨r, hr', h⟩ := C56_formula p s (by omega) (by rw [hs]; exact Nat.pow_le_pow_right (by norm_num) h63)
  rw [hr] at hr'
  cases hr'
  rw [h]
  congr 2
  unfold Spec.envelope
  apply List.ext_getElem?
  intro i
  rw [List.getElem?_map, List.getElem?_map]
  by_cases hi : i < s.length
  · rw [List.getElem?_range hi, List.getElem?_eq_getElem hi]
    simp only [Option.map_some]
    have : Spec.missing s.length (max s.length 32) = 0 := by
      unfold Spec.missing; rw [if_pos (.inl (by omega))]
    rw [this, zero_mul, sub_zero, List.getD_eq_getElem?_getD, List.getElem?_eq_getElem hi, Option.getD_some]
  · rw [List.getElem?_eq_none (by simpa using hi), List.getElem?_eq_none (by simpa using hi)]; rfl

/-- C56, totality in every arithmetic: the envelope of every non-empty signal of at most `2^63` samples exists and has one
value per sample; the empty signal has none. -/
theorem C56_envelope_total {F : Type} [Flt F] [RustFft F] (p : Profile) (s : List F) (h : s.length ≤ 2 ^ 63) :
    (s = [] → calculateUpperEnv p s = .ok none) ∧
    (s ≠ [] → ∃ env, calculateUpperEnv p s = .ok (some env) ∧ env.length = s.length) :=
  ⟨fun h => h ▸ calculateUpperEnv_nil, fun hs => calculateUpperEnv_total hs h⟩

/-- Signals meeting the hypotheses: a 32-sample impulse, and a 40-sample signal padded to 64. -/
example : ∃ s : List ℝ, s.length = 2 ^ 5 ∧ mean s = 1 := by
  refine ⟨32 :: List.replicate 31 0, by simp, ?_⟩
  simp [mean]
example : ∃ s : List ℝ, 2 ≤ s.length ∧ nextPowTwo .checked s.length = .ok 64 ∧ Spec.missing s.length (max 64 32) = 1 := by
  refine ⟨List.replicate 40 1, ?_⟩
  rw [List.length_replicate]
  refine ⟨by decide, rfl, ?_⟩
  unfold Spec.missing
  rw [if_neg (by decide)]
example : ∃ s : List ℝ, 2 ≤ s.length ∧ nextPowTwo .checked s.length = .ok 1023 := by
  refine ⟨List.replicate 513 1, ?_⟩
  rw [List.length_replicate]
  exact ⟨by decide, rfl⟩

end Visqol
