import Verif.Lemmas.Xcorr

/-! # The envelope computation -/

set_option linter.unusedSectionVars false

namespace Visqol
open Finset

section AnyArithmetic
variable {F : Type} [Flt F]

/-- Entry `i` of the scaling vector of `calculate_hilbert`. -/
def hilbertWeight (len n i : Nat) : F :=
  if 1 ≤ i ∧ i < (if len % 2 = 1 then (n + 1) / 2 else n / 2) then 2.0
  else if i = len / 2 then (if len % 2 = 1 then 2.0 else 1.0)
  else if i = 0 then 1.0 else 0.0

theorem hilbertScaling_eq {len n : Nat} (h1 : 1 ≤ len) (h2 : len ≤ n) (h3 : 2 ≤ n) :
    hilbertScaling (F := F) len n = .ok ((List.range n).map (hilbertWeight len n)) := by
  unfold hilbertScaling
  dsimp only
  rw [setIdx_of_lt (by simp; omega)]
  simp only [ok_bind]
  have hne : (len != 0) = true := by simp; omega
  by_cases hodd : len % 2 = 1
  · have hb : (len % 2 == 1) = true := by simp [hodd]
    simp only [hb, Bool.not_true, hne, Bool.and_true, Bool.false_eq_true, if_false, if_true]
    rw [setIdx_of_lt (by simp; omega)]
    simp only [ok_bind]
    rw [if_pos (by simp; omega)]
    congr 1
    apply List.ext_getElem?
    intro i
    rw [List.getElem?_mapIdx, List.getElem?_map]
    by_cases hi : i < n
    · rw [List.getElem?_range hi, List.getElem?_set, List.getElem?_set, List.getElem?_replicate]
      simp only [List.length_set, List.length_replicate, hodd, hilbertWeight, if_true, hi, Option.map_some]
      by_cases ha : 1 ≤ i ∧ i < (n + 1) / 2
      · simp only [ha, and_self, if_true]
        by_cases e : len / 2 = i
        · simp [e, hi]
        · have : ¬ 0 = i := by omega
          simp [e, this]
      · simp only [ha, if_false]
        by_cases e : len / 2 = i
        · simp [e, hi]
        · have e' : ¬ i = len / 2 := fun h => e h.symm
          by_cases e0 : 0 = i
          · subst e0; simp [e, e']; omega
          · have e0' : ¬ i = 0 := fun h => e0 h.symm
            simp [e, e', e0, e0']
    · rw [List.getElem?_eq_none (by simp; omega), List.getElem?_eq_none (by simp; omega)]; rfl
  · have hb : (len % 2 == 1) = false := by simp; omega
    simp only [hb, Bool.not_false, Bool.true_and, hne, if_true, Bool.false_eq_true, if_false]
    rw [setIdx_of_lt (by simp; omega)]
    simp only [ok_bind]
    rw [if_pos (by simp; omega)]
    congr 1
    apply List.ext_getElem?
    intro i
    rw [List.getElem?_mapIdx, List.getElem?_map]
    by_cases hi : i < n
    · rw [List.getElem?_range hi, List.getElem?_set, List.getElem?_set, List.getElem?_replicate]
      simp only [List.length_set, List.length_replicate, hodd, hilbertWeight, if_false, hi, if_true, Option.map_some]
      by_cases ha : 1 ≤ i ∧ i < n / 2
      · simp only [ha, and_self, if_true]
        by_cases e : len / 2 = i
        · simp [e, hi]
        · have : ¬ 0 = i := by omega
          simp [e, this]
      · simp only [ha, if_false]
        by_cases e : len / 2 = i
        · simp [e, hi]
        · have e' : ¬ i = len / 2 := fun h => e h.symm
          by_cases e0 : 0 = i
          · subst e0; simp [e, e']; omega
          · have e0' : ¬ i = 0 := fun h => e0 h.symm
            simp [e, e', e0, e0']
    · rw [List.getElem?_eq_none (by simp; omega), List.getElem?_eq_none (by simp; omega)]; rfl

theorem fftManager_new {p : Profile} {n : Nat} (h1 : 1 ≤ n) (h2 : n ≤ 2 ^ 63) :
    ∃ m, FftManager.new p n = .ok m ∧ m.samplesPerChannel = n ∧ n ≤ m.fftSize ∧ 32 ≤ m.fftSize := by
  obtain ⟨r, hr, h3, _⟩ := C41_next_pow_two_bounds p n h1 h2
  refine ⟨⟨max r 32, n⟩, ?_, rfl, ?_, ?_⟩
  · unfold FftManager.new; rw [hr]; rfl
  · show n ≤ max r 32; omega
  · show 32 ≤ max r 32; omega

variable [RustFft F]

theorem forward1d_length (m : FftManager) (s : List F) : (forward1d m s).length = m.fftSize := by
  unfold forward1d
  rw [RustFft.length_forward]; simp [resize_length]

theorem inverse1d_of_length {m : FftManager} {freq : List (Cpx F)} (h : freq.length = m.fftSize)
    (hs : m.samplesPerChannel ≤ m.fftSize) : ∃ t, inverse1d m freq = .ok t ∧ t.length = m.samplesPerChannel := by
  unfold inverse1d
  rw [if_neg (by simp [h])]
  simp only
  rw [if_pos (by rw [List.length_map, RustFft.length_inverse, h]; exact hs)]
  refine ⟨_, rfl, ?_⟩
  rw [List.length_take, List.length_map, RustFft.length_inverse, h]
  omega

/-- The envelope of a non-empty signal exists and has one value per sample, in any arithmetic. -/
theorem calculateUpperEnv_total {p : Profile} {s : List F} (h1 : s ≠ []) (h2 : s.length ≤ 2 ^ 63) :
    ∃ env, calculateUpperEnv p s = .ok (some env) ∧ env.length = s.length := by
  have hl : 1 ≤ s.length := List.length_pos_iff.mpr h1
  unfold calculateUpperEnv meanOpt
  rw [if_neg h1]
  simp only
  generalize Flt.sum s / Flt.ofNat s.length = mean
  obtain ⟨m, hm, hsp, hle, h32⟩ := fftManager_new (p := p) hl h2
  unfold calculateHilbert
  rw [List.length_map, hm]
  simp only [ok_bind, forward1d_length]
  rw [hilbertScaling_eq hl hle (by omega)]
  simp only [ok_bind]
  obtain ⟨t, ht, htl⟩ := inverse1d_of_length (m := m)
    (freq := List.zipWith Cpx.smul (forward1d m (s.map (· - mean))) ((List.range m.fftSize).map (hilbertWeight s.length m.fftSize)))
    (by simp [forward1d_length]) (by omega)
  rw [ht]
  exact ⟨_, rfl, by simp [htl, hsp]⟩

theorem calculateUpperEnv_nil {p : Profile} : calculateUpperEnv p ([] : List F) = .ok none := by
  unfold calculateUpperEnv meanOpt; rw [if_pos rfl]

theorem calculateUpperEnv_none_iff {p : Profile} {s : List F} (h2 : s.length ≤ 2 ^ 63) :
    calculateUpperEnv p s = .ok none ↔ s = [] := by
  constructor
  · intro h
    by_contra hs
    obtain ⟨env, he, _⟩ := calculateUpperEnv_total (p := p) hs h2
    rw [h] at he; cases he
  · rintro rfl; exact calculateUpperEnv_nil

end AnyArithmetic

/-! ## Exact arithmetic -/

/-- Real part of the root of unity. -/
noncomputable def cosE (N : ℕ) (t : ℤ) : ℝ := (rootE N t).re

theorem cosE_neg (N : ℕ) (t : ℤ) : cosE N (-t) = cosE N t := by
  unfold cosE; rw [← rootE_conj]; simp

theorem cosE_add_mul {N : ℕ} (hN : 0 < N) (t k : ℤ) : cosE N (t + N * k) = cosE N t := by
  unfold cosE
  rw [rootE_add, (rootE_eq_one_iff hN _).mpr (Dvd.intro _ rfl), mul_one]

theorem cosE_sum {N : ℕ} (hN : 0 < N) (t : ℤ) : ∑ k ∈ range N, cosE N (k * t) = if (N : ℤ) ∣ t then (N : ℝ) else 0 := by
  have := congrArg Complex.re (rootE_sum hN t)
  rw [Complex.re_sum] at this
  unfold cosE
  rw [this]
  split <;> simp

/-- Splitting a sum over `2g + 2` terms into the first, the lower half, the middle and the upper half. -/
theorem sum_split (g : ℕ) (f : ℕ → ℝ) :
    ∑ k ∈ range (2 * g + 2), f k = f 0 + ∑ i ∈ range g, f (i + 1) + f (g + 1) + ∑ i ∈ range g, f (g + 2 + i) := by
  have e : 2 * g + 2 = (g + 2) + g := by ring
  rw [e, Finset.sum_range_add, Finset.sum_range_succ, Finset.sum_range_succ']
  ring

/-- Weighting one half of a spectrum by two. -/
theorem half_sum {g : ℕ} (w f : ℕ → ℝ) (hsym : ∀ i < g, f (2 * g + 2 - (i + 1)) = f (i + 1))
    (w0 : w 0 = 1) (w1 : ∀ i < g, w (i + 1) = 2) (w2 : ∀ i < g, w (g + 2 + i) = 0) :
    ∑ k ∈ range (2 * g + 2), w k * f k = ∑ k ∈ range (2 * g + 2), f k - (1 - w (g + 1)) * f (g + 1) := by
  rw [sum_split g (fun k => w k * f k), sum_split g f]
  have e1 : ∑ i ∈ range g, w (i + 1) * f (i + 1) = 2 * ∑ i ∈ range g, f (i + 1) := by
    rw [Finset.mul_sum]; apply Finset.sum_congr rfl; intro i hi; rw [w1 i (Finset.mem_range.mp hi)]
  have e2 : ∑ i ∈ range g, w (g + 2 + i) * f (g + 2 + i) = 0 := by
    apply Finset.sum_eq_zero; intro i hi; rw [w2 i (Finset.mem_range.mp hi), zero_mul]
  have e3 : ∑ i ∈ range g, f (g + 2 + i) = ∑ i ∈ range g, f (i + 1) := by
    rw [← Finset.sum_range_reflect]
    apply Finset.sum_congr rfl
    intro i hi
    have := Finset.mem_range.mp hi
    rw [← hsym i this]
    congr 1; omega
  rw [e1, e2, e3, w0]
  ring

/-- The real signal after weighting: `inverse1d` of the weighted spectrum. -/
theorem weighted_inverse (N len : ℕ) (_hN : 0 < N) (hlen : len ≤ N) (y : List ℝ) (w : ℕ → ℝ) :
    inverse1d ⟨N, len⟩ (List.zipWith Cpx.smul (forward1d ⟨N, len⟩ y) ((List.range N).map w)) =
      .ok ((List.range len).map fun t : ℕ =>
        (∑ k ∈ range N, w k * ∑ a ∈ range N, y.getD a 0 * cosE N (k * ((t : ℤ) - a))) / N) := by
  unfold inverse1d forward1d
  have l1 : (RustFft.forward ((resize y N (0.0 : ℝ)).map Cpx.ofRe)).length = N := by
    rw [RustFft.length_forward]; simp [resize_length]
  have lp : (List.zipWith Cpx.smul (RustFft.forward ((resize y N (0.0 : ℝ)).map Cpx.ofRe)) ((List.range N).map w)).length = N := by
    rw [List.length_zipWith, l1]; simp
  generalize hpr : List.zipWith Cpx.smul (RustFft.forward ((resize y N (0.0 : ℝ)).map Cpx.ofRe)) ((List.range N).map w) = pr at *
  rw [if_neg (by simpa using lp)]
  simp only
  rw [if_pos (by rw [List.length_map, RustFft.length_inverse]
                 show len ≤ pr.length
                 omega)]
  congr 1
  show List.take len (List.map _ (RustFft.inverse pr)) = _
  rw [rustFft_inverse, dftList, List.map_map, lp]
  rw [← List.map_take, List.take_range, min_eq_left hlen]
  apply List.map_congr_left
  intro t ht
  have ht := List.mem_range.mp ht
  simp only [Function.comp, real_ofNat, real_lit1]
  have key : (dftSum 1 pr t).re = ∑ k ∈ range N, w k * ∑ a ∈ range N, y.getD a 0 * cosE N (k * ((t : ℤ) - a)) := by
    unfold dftSum
    rw [lp, Complex.re_sum]
    apply Finset.sum_congr rfl
    intro k hk
    have hk := Finset.mem_range.mp hk
    have hl : ((resize y N (0 : ℝ)).map Cpx.ofRe).length = N := by simp [resize_length]
    have e1 : entryC pr k = (w k : ℂ) * ∑ a ∈ range N, ((y.getD a 0 : ℝ) : ℂ) * rootE N (-1 * (k * a)) := by
      have hf : (RustFft.forward ((resize y N (0.0 : ℝ)).map Cpx.ofRe))[k]? =
          some (RustFft.forward ((resize y N (0.0 : ℝ)).map Cpx.ofRe))[k] := List.getElem?_eq_getElem (by omega)
      have hz : pr[k]? = some (Cpx.smul (RustFft.forward ((resize y N (0.0 : ℝ)).map Cpx.ofRe))[k] (w k)) := by
        subst hpr
        rw [List.getElem?_zipWith, hf, List.getElem?_map, List.getElem?_range hk]; rfl
      rw [entryC_getElem hz]
      have hs : ∀ (z : Cpx ℝ) (s : ℝ), (Cpx.smul z s).toC = (s : ℂ) * z.toC := by
        intro z s
        apply Complex.ext <;> simp [Cpx.smul, Cpx.toC, mul_comm]
      rw [hs, ← entryC_getElem hf]
      congr 1
      simp only [real_lit0, rustFft_forward]
      rw [entryC_dftList (by rw [hl]; exact hk)]
      unfold dftSum
      rw [hl]
      apply Finset.sum_congr rfl
      intro a ha
      rw [entryC_pad y N a (Finset.mem_range.mp ha)]
    rw [e1, mul_assoc, Finset.sum_mul, Complex.re_ofReal_mul, Complex.re_sum]
    congr 1
    apply Finset.sum_congr rfl
    intro a _
    rw [mul_assoc, Complex.re_ofReal_mul, ← rootE_add]
    unfold cosE
    congr 3
    ring
  show (dftSum 1 pr t).re * (1 / (N : ℝ)) = _
  rw [key]; ring

end Visqol
