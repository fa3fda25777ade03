import Verif.Lemmas.IeeeEnvelope
import Verif.Lemmas.IeeeBestLag

/-! # Floating point: the delay found is the delay of the exact envelopes up to a tolerance -/

set_option linter.unusedSectionVars false

namespace Visqol
open Ieee
open Finset (range)

/-- Cauchy–Schwarz for the correlation at one lag. -/
theorem corr_cauchy {a b : ℤ → ℝ} {n : ℕ} (ha : ∀ k : ℤ, k < 0 ∨ (n : ℤ) ≤ k → a k = 0) (m : ℕ) (k : ℤ) :
    |∑ j ∈ range m, a (j + k) * b j| ≤ Real.sqrt (∑ i ∈ range n, a i ^ 2) * Real.sqrt (∑ j ∈ range m, b j ^ 2) := by
  have h1 : ∑ j ∈ range m, a (j + k) ^ 2 ≤ ∑ i ∈ range n, a i ^ 2 := by
    have e : ∑ j ∈ range m, a (j + k) ^ 2 = ∑ j ∈ (range m).filter (fun j : ℕ => 0 ≤ (j : ℤ) + k ∧ (j : ℤ) + k < n), a (j + k) ^ 2 := by
      rw [Finset.sum_filter]
      refine Finset.sum_congr rfl fun j _ => ?_
      split
      · rfl
      · rename_i h
        rw [ha _ (by omega)]; ring
    rw [e]
    have inj : Set.InjOn (fun j : ℕ => ((j : ℤ) + k).toNat) ((range m).filter (fun j : ℕ => 0 ≤ (j : ℤ) + k ∧ (j : ℤ) + k < n) : Set ℕ) := by
      intro x hx y hy hxy
      simp only [Finset.coe_filter, Set.mem_setOf_eq] at hx hy
      simp only at hxy
      omega
    have e2 : ∑ j ∈ (range m).filter (fun j : ℕ => 0 ≤ (j : ℤ) + k ∧ (j : ℤ) + k < n), a (j + k) ^ 2 =
        ∑ i ∈ ((range m).filter (fun j : ℕ => 0 ≤ (j : ℤ) + k ∧ (j : ℤ) + k < n)).image (fun j : ℕ => ((j : ℤ) + k).toNat), a i ^ 2 := by
      rw [Finset.sum_image inj]
      refine Finset.sum_congr rfl fun j hj => ?_
      have := (Finset.mem_filter.mp hj).2
      rw [Int.toNat_of_nonneg this.1]
    rw [e2]
    refine Finset.sum_le_sum_of_subset_of_nonneg ?_ fun _ _ _ => sq_nonneg _
    intro i hi
    obtain ⟨j, hj, rfl⟩ := Finset.mem_image.mp hi
    have := (Finset.mem_filter.mp hj).2
    exact Finset.mem_range.mpr (by omega)
  have h2 := Finset.sum_mul_sq_le_sq_mul_sq (range m) (fun j : ℕ => a (j + k)) (fun j : ℕ => b j)
  rw [← Real.sqrt_mul (Finset.sum_nonneg fun _ _ => sq_nonneg _), ← Real.sqrt_sq_eq_abs]
  exact Real.sqrt_le_sqrt (h2.trans (mul_le_mul_of_nonneg_right h1 (Finset.sum_nonneg fun _ _ => sq_nonneg _)))

theorem sampleAt_nat (s : List ℝ) (j : ℕ) : sampleAt s (j : ℤ) = s.getD j 0 := by
  unfold sampleAt; rw [if_pos (by positivity)]; simp

theorem sampleAt_outside {s : List ℝ} {n : ℕ} (h : s.length ≤ n) {k : ℤ} (hk : k < 0 ∨ (n : ℤ) ≤ k) : sampleAt s k = 0 := by
  unfold sampleAt
  split
  · rw [List.getD, List.getElem?_eq_none (by omega)]; rfl
  · rfl

theorem nrm_seqC (x : List ℝ) (n : ℕ) : nrm n (seqC x) = Real.sqrt (∑ i ∈ range n, x.getD i 0 ^ 2) := by
  unfold nrm
  congr 1
  refine Finset.sum_congr rfl fun i _ => ?_
  rw [norm_seqC, sq_abs]

theorem nrm_seqC_sub (x y : List ℝ) (n : ℕ) : nrm n (fun t => seqC x t - seqC y t) = Real.sqrt (∑ i ∈ range n, (x.getD i 0 - y.getD i 0) ^ 2) := by
  unfold nrm
  congr 1
  refine Finset.sum_congr rfl fun i _ => ?_
  unfold seqC
  beta_reduce
  rw [← Complex.ofReal_sub, Complex.norm_real, Real.norm_eq_abs, sq_abs]

/-- Correlations of nearby signals. -/
theorem xcorr_near {a a' b b' : List ℝ} {n : ℕ} (h1 : a.length ≤ n) (h1' : a'.length ≤ n) (h2 : b.length ≤ n) (h2' : b.length = b'.length) (k : ℤ) :
    |xcorr a b k - xcorr a' b' k| ≤ nrm n (fun t => seqC a t - seqC a' t) * nrm n (seqC b) + nrm n (seqC a') * nrm n (fun t => seqC b t - seqC b' t) := by
  have e : xcorr a b k - xcorr a' b' k =
      (∑ j ∈ range b.length, (fun i : ℤ => sampleAt a i - sampleAt a' i) (j + k) * sampleAt b j) +
        ∑ j ∈ range b.length, sampleAt a' (j + k) * (fun i : ℤ => sampleAt b i - sampleAt b' i) j := by
    unfold xcorr
    rw [← h2', ← Finset.sum_sub_distrib, ← Finset.sum_add_distrib]
    refine Finset.sum_congr rfl fun j _ => ?_
    ring
  rw [e]
  have mono : ∀ f : ℕ → ℝ, Real.sqrt (∑ j ∈ range b.length, f j ^ 2) ≤ Real.sqrt (∑ j ∈ range n, f j ^ 2) := fun f =>
    Real.sqrt_le_sqrt (Finset.sum_le_sum_of_subset_of_nonneg (Finset.range_subset_range.mpr h2) fun _ _ _ => sq_nonneg _)
  refine (abs_add_le _ _).trans (add_le_add ?_ ?_)
  · refine (corr_cauchy (a := fun i : ℤ => sampleAt a i - sampleAt a' i) (b := fun i : ℤ => sampleAt b i) (n := n) (fun k hk => ?_) b.length k).trans ?_
    · simp only [sampleAt_outside h1 hk, sampleAt_outside h1' hk, sub_zero]
    · rw [nrm_seqC_sub, nrm_seqC]
      simp only [sampleAt_nat]
      exact mul_le_mul_of_nonneg_left (mono fun j => b.getD j 0) (Real.sqrt_nonneg _)
  · refine (corr_cauchy (a := fun i : ℤ => sampleAt a' i) (b := fun i : ℤ => sampleAt b i - sampleAt b' i) (n := n) (fun k hk => sampleAt_outside h1' hk) b.length k).trans ?_
    rw [nrm_seqC_sub, nrm_seqC]
    simp only [sampleAt_nat]
    exact mul_le_mul_of_nonneg_left (mono fun j => b.getD j 0 - b'.getD j 0) (Real.sqrt_nonneg _)

/-- The exact envelope of an ordinary signal is bounded. -/
theorem envelope_le {xs : List ℝ} (hb : ∀ x ∈ xs, |x| ≤ 2) {N : ℕ} (hN : xs.length ≤ N) (t : ℕ) :
    |(Spec.envelope xs N).getD t 0| ≤ 19 := by
  unfold Spec.envelope
  rw [List.getD_eq_getElem?_getD, List.getElem?_map]
  by_cases ht : t < xs.length
  swap
  · rw [List.getElem?_eq_none (by simpa using ht)]; simp
  rw [List.getElem?_range ht]
  simp only [Option.map_some, Option.getD_some]
  have hpos : (0 : ℝ) < xs.length := by exact_mod_cast (by omega : 0 < xs.length)
  have hm : |mean xs| ≤ 2 := by
    unfold mean
    rw [abs_div, abs_of_pos hpos, div_le_iff₀ hpos]
    have := list_sum_abs_le hb
    linarith
  have hs : |xs.getD t 0| ≤ 2 := by
    rw [List.getD_eq_getElem?_getD, List.getElem?_eq_getElem ht]
    exact hb _ (List.getElem_mem _)
  have hy : ∀ a, |(xs.map (· - mean xs)).getD a 0| ≤ 4 := by
    intro a
    rw [List.getD_eq_getElem?_getD, List.getElem?_map]
    by_cases ha : a < xs.length
    · rw [List.getElem?_eq_getElem ha]
      simp only [Option.map_some, Option.getD_some]
      have := hb _ (List.getElem_mem ha)
      exact (abs_sub _ _).trans (by linarith)
    · rw [List.getElem?_eq_none (by omega)]; simp
  have hh : |Spec.highest (xs.map (· - mean xs)) N t| ≤ 4 := by
    unfold Spec.highest
    have hNpos : (0 : ℝ) < N := hpos.trans_le (by exact_mod_cast hN)
    rw [abs_div, abs_of_pos hNpos, div_le_iff₀ hNpos]
    refine (Finset.abs_sum_le_sum_abs _ _).trans ?_
    calc ∑ a ∈ range (xs.map (· - mean xs)).length, |(xs.map (· - mean xs)).getD a 0 * Real.cos (2 * Real.pi * (N / 2 : ℕ) * ((t : ℝ) - a) / N)|
        ≤ ∑ _a ∈ range (xs.map (· - mean xs)).length, (4 : ℝ) := by
          refine Finset.sum_le_sum fun a _ => ?_
          rw [abs_mul]
          have := Real.abs_cos_le_one (2 * Real.pi * (N / 2 : ℕ) * ((t : ℝ) - a) / N)
          calc _ ≤ 4 * (1 : ℝ) := mul_le_mul (hy a) this (abs_nonneg _) (by norm_num)
            _ = 4 := by norm_num
      _ = xs.length * 4 := by simp
      _ ≤ 4 * N := by
          have : (xs.length : ℝ) ≤ N := by exact_mod_cast hN
          linarith
  have hmiss : |Spec.missing xs.length N * Spec.highest (xs.map (· - mean xs)) N t| ≤ 4 := by
    unfold Spec.missing
    split
    · simp
    · rw [one_mul]; exact hh
  have k1 : |2 * (xs.getD t 0 - mean xs - Spec.missing xs.length N * Spec.highest (xs.map (· - mean xs)) N t) - 1 / 1000000| ≤ 17 := by
    obtain ⟨a1, a2⟩ := abs_le.mp hm
    obtain ⟨b1, b2⟩ := abs_le.mp hs
    obtain ⟨c1, c2⟩ := abs_le.mp hmiss
    rw [abs_le]
    constructor <;> linarith
  refine (abs_add_le _ _).trans ?_
  rw [abs_abs]
  linarith

theorem nrm_envelope_le {xs : List ℝ} (hb : ∀ x ∈ xs, |x| ≤ 2) {N n : ℕ} (hN : xs.length ≤ N) :
    nrm n (seqC (Spec.envelope xs N)) ≤ 19 * Real.sqrt n :=
  nrm_le_const (by norm_num) fun t _ => by rw [norm_seqC]; exact envelope_le hb hN t

variable {F : Type} [Flt F] [Ieee F] [RustFft F] [AccurateFft F]

/-- The envelope of one signal, with its errors over the common length. -/
theorem envelope_common [Libm F] {p : Profile} {s : List F} {xs : List ℝ} (hv : Vals s xs) (hb : ∀ x ∈ xs, |x| ≤ 2) (h2 : 2 ≤ s.length)
    {n : ℕ} (hn : s.length ≤ n) (h24 : n ≤ 2 ^ 24) :
    ∃ r env es, nextPowTwo p s.length = .ok r ∧ calculateUpperEnv p s = .ok (some env) ∧ Vals env es ∧ env.length = s.length ∧
      nrm n (fun t => seqC es t - seqC (Spec.envelope xs (max r 32)) t) ≤ Real.sqrt n * (1 / 2 ^ 32 + n / 2 ^ 46) ∧
      nrm n (seqC (Spec.envelope xs (max r 32))) ≤ 19 * Real.sqrt n ∧ nrm n (seqC es) ≤ 20 * Real.sqrt n := by
  obtain ⟨r, env, es, h1, h3, h4, h5, h6⟩ := envelope_acc (p := p) hv hb h2 (hn.trans h24)
  obtain ⟨r', hr, hr2, _⟩ := C41_next_pow_two_bounds p s.length (by omega) ((hn.trans h24).trans (by norm_num))
  rw [h1] at hr
  cases hr
  have hel := h4.length
  have hxl := hv.length
  have hsl : (Spec.envelope xs (max r 32)).length = xs.length := by simp [Spec.envelope]
  have hz : nrm n (fun t => seqC es t - seqC (Spec.envelope xs (max r 32)) t) = nrm s.length (fun t => seqC es t - seqC (Spec.envelope xs (max r 32)) t) :=
    nrm_zero_pad hn fun k hk => by rw [seqC_beyond _ (by omega), seqC_beyond _ (by omega), sub_zero]
  have hnr : (s.length : ℝ) ≤ n := by exact_mod_cast hn
  have hq := Real.sqrt_nonneg (n : ℝ)
  have hd : nrm n (fun t => seqC es t - seqC (Spec.envelope xs (max r 32)) t) ≤ Real.sqrt n * (1 / 2 ^ 32 + n / 2 ^ 46) := by
    rw [hz]
    refine h6.trans (mul_le_mul (Real.sqrt_le_sqrt hnr) ?_ (by positivity) hq)
    exact add_le_add le_rfl (div_le_div_of_nonneg_right hnr (by positivity))
  have hE := nrm_envelope_le (n := n) hb (N := max r 32) (by omega)
  refine ⟨r, env, es, h1, h3, h4, h5, hd, hE, ?_⟩
  refine (nrm_le_add_sub n (seqC es) (seqC (Spec.envelope xs (max r 32)))).trans ((add_le_add hd hE).trans ?_)
  have h24' : (n : ℝ) ≤ 2 ^ 24 := by exact_mod_cast h24
  have : 1 / 2 ^ 32 + (n : ℝ) / 2 ^ 46 ≤ 1 := by
    generalize (n : ℝ) = l at *
    norm_num at h24' ⊢
    linarith
  have := mul_le_mul_of_nonneg_left this hq
  linarith

/-- The lag found from two ordinary signals maximises the correlation of their exact envelopes up to a small tolerance. -/
theorem lag_near [Libm F] {p : Profile} {s1 s2 : List F} {x1 x2 : List ℝ} (hv1 : Vals s1 x1) (hv2 : Vals s2 x2)
    (hb1 : ∀ x ∈ x1, |x| ≤ 2) (hb2 : ∀ x ∈ x2, |x| ≤ 2) (h1 : 2 ≤ s1.length) (h2 : 2 ≤ s2.length) {n : ℕ}
    (hn : n = max s1.length s2.length) (h9 : 9 ≤ n) (h24 : n ≤ 2 ^ 24) :
    ∃ r1 r2 e1 e2, ∃ lag : ℤ, nextPowTwo p s1.length = .ok r1 ∧ nextPowTwo p s2.length = .ok r2 ∧
      calculateUpperEnv p s1 = .ok (some e1) ∧ calculateUpperEnv p s2 = .ok (some e2) ∧ calculateBestLag p e1 e2 = .ok (some lag) ∧
      |lag| < n ∧ ∀ k : ℤ, |k| < n → |xcorr (Spec.envelope x1 (max r1 32)) (Spec.envelope x2 (max r2 32)) k| ≤
        |xcorr (Spec.envelope x1 (max r1 32)) (Spec.envelope x2 (max r2 32)) lag| + n * Real.sqrt n / 2 ^ 26 := by
  obtain ⟨r1, e1, y1, a1, a2, a3, a4, a5, a6, a7⟩ := envelope_common (p := p) hv1 hb1 h1 (n := n) (by omega) h24
  obtain ⟨r2, e2, y2, b1, b2, b3, b4, b5, b6, b7⟩ := envelope_common (p := p) hv2 hb2 h2 (n := n) (by omega) h24
  have hq0 := Real.sqrt_nonneg (n : ℝ)
  have hqq : Real.sqrt (n : ℝ) * Real.sqrt n = n := Real.mul_self_sqrt (Nat.cast_nonneg _)
  have h24' : (n : ℝ) ≤ 2 ^ 24 := by exact_mod_cast h24
  have h9' : (9 : ℝ) ≤ n := by exact_mod_cast h9
  have hq3 : 3 ≤ Real.sqrt n := Real.le_sqrt_of_sq_le (by norm_num; linarith)
  have hq12 : Real.sqrt n ≤ 2 ^ 12 := by
    generalize Real.sqrt (n : ℝ) = q at *
    by_contra hc
    have : (2 : ℝ) ^ 12 * 2 ^ 12 < q * q := mul_lt_mul'' (not_le.mp hc) (not_le.mp hc) (by positivity) (by positivity)
    rw [hqq] at this
    norm_num at this h24'
    linarith
  have big : ∀ y : List ℝ, nrm n (seqC y) ≤ 20 * Real.sqrt n → nrm n (seqC y) ≤ 2 ^ 40 := by
    intro y hy
    refine hy.trans ?_
    calc 20 * Real.sqrt n ≤ 20 * 2 ^ 12 := by linarith
      _ ≤ 2 ^ 40 := by norm_num
  obtain ⟨lag, c1, c2, c3⟩ := bestLag_near (p := p) a3 b3 (n := n) (by rw [a4, b4]; exact hn) h9 h24 (big y1 a7) (big y2 b7)
  refine ⟨r1, r2, e1, e2, lag, a1, b1, a2, b2, c1, c2, fun k hk => ?_⟩
  have g0 := c3 k hk
  have hl1 := a3.length
  have hl2 := b3.length
  have hx1 := hv1.length
  have hx2 := hv2.length
  have hs1 : (Spec.envelope x1 (max r1 32)).length = x1.length := by simp [Spec.envelope]
  have hs2 : (Spec.envelope x2 (max r2 32)).length = x2.length := by simp [Spec.envelope]
  have near := fun k => xcorr_near (a := y1) (a' := Spec.envelope x1 (max r1 32)) (b := y2) (b' := Spec.envelope x2 (max r2 32)) (n := n)
    (by omega) (by omega) (by omega) (by omega) k
  have nb : nrm n (fun t => seqC y1 t - seqC (Spec.envelope x1 (max r1 32)) t) * nrm n (seqC y2) +
      nrm n (seqC (Spec.envelope x1 (max r1 32))) * nrm n (fun t => seqC y2 t - seqC (Spec.envelope x2 (max r2 32)) t) ≤
      39 * (n * (1 / 2 ^ 32 + n / 2 ^ 46)) := by
    calc _ ≤ (Real.sqrt n * (1 / 2 ^ 32 + n / 2 ^ 46)) * (20 * Real.sqrt n) + (19 * Real.sqrt n) * (Real.sqrt n * (1 / 2 ^ 32 + n / 2 ^ 46)) :=
          add_le_add (mul_le_mul a5 b7 (nrm_nonneg _ _) (by positivity)) (mul_le_mul a6 b5 (nrm_nonneg _ _) (by positivity))
      _ = 39 * ((Real.sqrt n * Real.sqrt n) * (1 / 2 ^ 32 + n / 2 ^ 46)) := by ring
      _ = 39 * (n * (1 / 2 ^ 32 + n / 2 ^ 46)) := by rw [hqq]
  have n1 := (near k).trans nb
  have n2 := (near lag).trans nb
  have eb : 2 * (4 * Real.sqrt n * ((nrm n (seqC y1) + 1) * (nrm n (seqC y2) + 1)) / 2 ^ 40) ≤ 8 * (Real.sqrt n * (441 * n)) / 2 ^ 40 := by
    have : (nrm n (seqC y1) + 1) * (nrm n (seqC y2) + 1) ≤ 441 * n := by
      calc _ ≤ (21 * Real.sqrt n) * (21 * Real.sqrt n) :=
            mul_le_mul (by linarith) (by linarith) (by linarith [nrm_nonneg n (seqC y2)]) (by linarith)
        _ = 441 * (Real.sqrt n * Real.sqrt n) := by ring
        _ = 441 * n := by rw [hqq]
    have := mul_le_mul_of_nonneg_left this hq0
    rw [mul_div_assoc']
    refine div_le_div_of_nonneg_right ?_ (by positivity)
    linarith
  have t1 := abs_sub_abs_le_abs_sub (xcorr (Spec.envelope x1 (max r1 32)) (Spec.envelope x2 (max r2 32)) k) (xcorr y1 y2 k)
  rw [abs_sub_comm] at t1
  have t2 := abs_sub_abs_le_abs_sub (xcorr y1 y2 lag) (xcorr (Spec.envelope x1 (max r1 32)) (Spec.envelope x2 (max r2 32)) lag)
  have fin : 2 * (39 * (n * (1 / 2 ^ 32 + n / 2 ^ 46))) + 8 * (Real.sqrt n * (441 * n)) / 2 ^ 40 ≤ n * Real.sqrt n / 2 ^ 26 := by
    have i1 : (n : ℝ) / 2 ^ 46 ≤ Real.sqrt n / 2 ^ 34 := by
      rw [div_le_div_iff₀ (by positivity) (by positivity)]
      calc (n : ℝ) * 2 ^ 34 = Real.sqrt n * Real.sqrt n * 2 ^ 34 := by rw [hqq]
        _ ≤ Real.sqrt n * 2 ^ 12 * 2 ^ 34 := by
            refine mul_le_mul_of_nonneg_right (mul_le_mul_of_nonneg_left hq12 hq0) (by positivity)
        _ = Real.sqrt n * 2 ^ 46 := by ring
    have i2 : (1 : ℝ) / 2 ^ 32 ≤ Real.sqrt n / 3 / 2 ^ 32 := div_le_div_of_nonneg_right (by linarith) (by positivity)
    have hnpos : (0 : ℝ) ≤ n := by linarith
    have i3 := mul_le_mul_of_nonneg_left (add_le_add i2 i1) hnpos
    have e : 2 * (39 * (n * (Real.sqrt n / 3 / 2 ^ 32 + Real.sqrt n / 2 ^ 34))) + 8 * (Real.sqrt n * (441 * n)) / 2 ^ 40 =
        (n * Real.sqrt n) * (78 * (1 / 3 / 2 ^ 32 + 1 / 2 ^ 34) + 3528 / 2 ^ 40) := by ring
    have i4 : (78 * (1 / 3 / 2 ^ 32 + 1 / 2 ^ 34) + 3528 / 2 ^ 40 : ℝ) ≤ 1 / 2 ^ 26 := by norm_num
    have i5 := mul_le_mul_of_nonneg_left i4 (mul_nonneg hnpos hq0)
    rw [mul_one_div] at i5
    linarith only [i3, i5, e]
  linarith only [g0, n1, n2, eb, t1, t2, fin]

end Visqol
