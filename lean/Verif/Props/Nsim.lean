import Verif.Lemmas.NsimReal

/-! # NSIM: C07, C08, C09, C10 (per patch), C42, C43 -/

namespace Visqol
open Finset

/-! ## C42: 2-D filtering is a replicate-padded convolution -/

/-- C42, any arithmetic: for a non-empty matrix and a 3 by 3 kernel the call succeeds, keeps the shape, and every cell is
the weighted sum of its replicate-padded 3 by 3 neighbourhood; the weight of the neighbour at row offset `r` and column
offset `c` is the kernel entry in row `2 - c` and column `2 - r` (kernel transposed and flipped), added in the order of `convSum`. -/
theorem C42_conv {F : Type} [Flt F] (p : Profile) (m : Mat F) (wf : m.WF) (hn : 0 < m.nrows) (hc : 0 < m.ncols)
    (a b c d e f g h i : F) :
    ∃ out, conv2d p ⟨3, [[a, b, c], [d, e, f], [g, h, i]]⟩ m = .ok out ∧ out.WF ∧ out.SameShape m ∧
      ∀ r j, r < m.nrows → j < m.ncols → out.at r j =
        0.0 + m.near r j 0 0 * i + m.near r j 1 0 * h + m.near r j 2 0 * g
            + m.near r j 0 1 * f + m.near r j 1 1 * e + m.near r j 2 1 * d
            + m.near r j 0 2 * c + m.near r j 1 2 * b + m.near r j 2 2 * a := by
  refine ⟨_, conv2d_eq p m wf hn hc a b c d e f g h i, Mat.ofFn_wf _ _ _, ?_, ?_⟩
  · exact ⟨by simp, rfl⟩
  · intro r j hr hj
    rw [Mat.ofFn_at _ _ _ _ _ hr hj]; rfl

/-- C42, exact arithmetic, as a double sum over the kernel. -/
theorem C42_conv_real (p : Profile) (m : Mat ℝ) (wf : m.WF) (hn : 0 < m.nrows) (hc : 0 < m.ncols)
    (k : Fin 3 → Fin 3 → ℝ) :
    ∃ out, conv2d p ⟨3, [[k 0 0, k 0 1, k 0 2], [k 1 0, k 1 1, k 1 2], [k 2 0, k 2 1, k 2 2]]⟩ m = .ok out ∧
      out.WF ∧ out.SameShape m ∧
      ∀ r j, r < m.nrows → j < m.ncols →
        out.at r j = ∑ u : Fin 3, ∑ v : Fin 3, k (Fin.rev v) (Fin.rev u) * m.near r j u v := by
  obtain ⟨out, h1, h2, h3, h4⟩ := C42_conv p m wf hn hc (k 0 0) (k 0 1) (k 0 2) (k 1 0) (k 1 1) (k 1 2) (k 2 0) (k 2 1) (k 2 2)
  refine ⟨out, h1, h2, h3, ?_⟩
  intro r j hr hj
  rw [h4 r j hr hj]
  have r0 : Fin.rev (0 : Fin 3) = 2 := rfl
  have r1 : Fin.rev (1 : Fin 3) = 1 := rfl
  have r2 : Fin.rev (2 : Fin 3) = 0 := rfl
  simp only [Fin.sum_univ_three, r0, r1, r2, real_lit0]
  simp only [Fin.val_zero, Fin.val_one, Fin.val_two]
  ring

/-- With a symmetric kernel this is the true convolution (no transposition). -/
theorem C42_conv_symmetric (p : Profile) (m : Mat ℝ) (wf : m.WF) (hn : 0 < m.nrows) (hc : 0 < m.ncols)
    (k : Fin 3 → Fin 3 → ℝ) (hk : ∀ u v, k u v = k v u) :
    ∃ out, conv2d p ⟨3, [[k 0 0, k 0 1, k 0 2], [k 1 0, k 1 1, k 1 2], [k 2 0, k 2 1, k 2 2]]⟩ m = .ok out ∧
      out.SameShape m ∧
      ∀ r j, r < m.nrows → j < m.ncols →
        out.at r j = ∑ u : Fin 3, ∑ v : Fin 3, k (Fin.rev u) (Fin.rev v) * m.near r j u v := by
  obtain ⟨out, h1, _, h3, h4⟩ := C42_conv_real p m wf hn hc k
  refine ⟨out, h1, h3, ?_⟩
  intro r j hr hj
  rw [h4 r j hr hj]
  apply Finset.sum_congr rfl; intro u _
  apply Finset.sum_congr rfl; intro v _
  rw [hk]

/-- A concrete case: a 2 by 3 matrix with an asymmetric kernel. -/
example : ∃ m : Mat ℝ, m.WF ∧ 0 < m.nrows ∧ 0 < m.ncols ∧ m.near 0 0 0 0 = 1 ∧ m.near 1 2 2 2 = 6 := by
  refine ⟨⟨3, [[1, 2, 3], [4, 5, 6]]⟩, ?_, by decide, by decide, ?_, ?_⟩
  · intro r hr; simp at hr; rcases hr with rfl | rfl <;> rfl
  · norm_num [Mat.near, Mat.at, Mat.nrows]
  · norm_num [Mat.near, Mat.at, Mat.nrows]

/-! ## C43: the NSIM window is a weighted average -/

/-- C43: filtering with the NSIM window keeps the shape, and every value lies between any bounds of the cell's
neighbourhood; a constant matrix is unchanged. -/
theorem C43_window_average (p : Profile) (m : Mat ℝ) (wf : m.WF) (hn : 0 < m.nrows) (hc : 0 < m.ncols) :
    ∃ out, conv2d p nsimWindow m = .ok out ∧ out.WF ∧ out.SameShape m ∧
      (∀ r j lo hi, r < m.nrows → j < m.ncols → (∀ u < 3, ∀ v < 3, lo ≤ m.near r j u v ∧ m.near r j u v ≤ hi) →
        lo ≤ out.at r j ∧ out.at r j ≤ hi) ∧
      (∀ a, (∀ r j, r < m.nrows → j < m.ncols → m.at r j = a) → ∀ r j, r < m.nrows → j < m.ncols → out.at r j = a) := by
  have bounds : ∀ r j lo hi, (∀ u < 3, ∀ v < 3, lo ≤ m.near r j u v ∧ m.near r j u v ≤ hi) →
      lo ≤ nsimAvg (m.near r j) ∧ nsimAvg (m.near r j) ≤ hi := by
    intro r j lo hi h
    constructor
    · rw [← nsimAvg_const lo]; exact nsimAvg_mono fun u hu v hv => (h u hu v hv).1
    · rw [← nsimAvg_const hi]; exact nsimAvg_mono fun u hu v hv => (h u hu v hv).2
  have key := nsimConv p m.nrows m.ncols hn hc m.at
  rw [← wf.eq_ofFn] at key
  refine ⟨_, key, Mat.ofFn_wf _ _ _, ⟨by simp, rfl⟩, ?_, ?_⟩
  · intro r j lo hi hr hj h
    rw [Mat.ofFn_at _ _ _ _ _ hr hj]
    exact bounds r j lo hi h
  · intro a ha r j hr hj
    rw [Mat.ofFn_at _ _ _ _ _ hr hj]
    have : ∀ u v, m.near r j u v = a := fun u v => ha _ _ (by omega) (by omega)
    obtain ⟨h1, h2⟩ := bounds r j a a (fun u _ v _ => by rw [this]; exact ⟨le_refl _, le_refl _⟩)
    exact le_antisymm h2 h1

/-- C43: the weights themselves are positive, symmetric under reflection and transposition, and sum to 1. -/
theorem C43_window_weights :
    (∀ r < 3, ∀ c < 3, 0 < (nsimWindow : Mat ℝ).at r c ∧
      (nsimWindow : Mat ℝ).at r c = (nsimWindow : Mat ℝ).at c r ∧
      (nsimWindow : Mat ℝ).at r c = (nsimWindow : Mat ℝ).at (2 - r) c) ∧
    (nsimWindow : Mat ℝ).toList.sum = 1 := by
  constructor
  · intro r hr c hc
    have h1 : r = 0 ∨ r = 1 ∨ r = 2 := by omega
    have h2 : c = 0 ∨ c = 1 ∨ c = 2 := by omega
    rcases h1 with rfl | rfl | rfl <;> rcases h2 with rfl | rfl | rfl <;>
      norm_num [nsimWindow, Mat.at, real_sci]
  · norm_num [nsimWindow, Mat.toList, real_sci]

example : ∃ m : Mat ℝ, m.WF ∧ 0 < m.nrows ∧ 0 < m.ncols ∧ ∀ r j, r < m.nrows → j < m.ncols → m.at r j = 7 := by
  refine ⟨⟨2, [[7, 7], [7, 7]]⟩, ?_, by decide, by decide, ?_⟩
  · intro r hr; simp at hr; rcases hr with rfl | rfl <;> rfl
  · intro r j hr hj
    have h1 : r = 0 ∨ r = 1 := by simp only [Mat.nrows, List.length] at hr; omega
    have h2 : j = 0 ∨ j = 1 := by simp only at hj; omega
    rcases h1 with rfl | rfl <;> rcases h2 with rfl | rfl <;> rfl

/-! ## C07: similarity scores never exceed 1 -/

/-- Comparing two equally shaped non-empty patches always succeeds (any arithmetic). -/
theorem C07_total {F : Type} [Flt F] (p : Profile) (ref deg : Mat F) (wr : ref.WF) (wd : deg.WF)
    (hs : ref.SameShape deg) (hn : 0 < ref.nrows) (hc : 0 < ref.ncols) :
    ∃ r, measurePatchSimilarity p ref deg = .ok r :=
  ⟨_, measurePatchSimilarity_eq p ref deg wr wd hs hn hc⟩

theorem mem_rows_ofFn {n c : Nat} {g : Nat → Nat → ℝ} {r : List ℝ} (h : r ∈ (Mat.ofFn n c g).rows) :
    ∃ i < n, r = (List.range c).map (g i) := by
  obtain ⟨i, hi, rfl⟩ := List.mem_map.mp h
  exact ⟨i, List.mem_range.mp hi, rfl⟩

/-- C07, per patch: every band mean and the overall similarity lie in `(-1, 1]`. -/
theorem C07_nsim_bounds (p : Profile) (ref deg : Mat ℝ) (wr : ref.WF) (wd : deg.WF) (r : PatchSim ℝ)
    (h : measurePatchSimilarity p ref deg = .ok r) :
    (∀ x ∈ r.freqBandMeans, -1 < x ∧ x ≤ 1) ∧ (-1 < r.similarity ∧ r.similarity ≤ 1) := by
  obtain ⟨hs, hn, hc⟩ := measure_ok_inv h
  rw [measurePatchSimilarity_eq p ref deg wr wd hs hn hc] at h
  cases h
  have hm : ∀ x ∈ (Mat.ofFn ref.nrows ref.ncols fun i j => simCell (ref.near i j) (deg.near i j)).rows.map
      (fun r => Flt.sum r / Flt.ofNat ref.ncols), -1 < x ∧ x ≤ 1 := by
    intro x hx
    obtain ⟨row, hrow, rfl⟩ := List.mem_map.mp hx
    obtain ⟨i, hi, rfl⟩ := mem_rows_ofFn hrow
    apply mean_bounds
    · intro h0
      have := congrArg List.length h0
      simp at this; omega
    · simp
    · intro y hy
      obtain ⟨j, hj, rfl⟩ := List.mem_map.mp hy
      exact simCell_bounds _ _
  refine ⟨hm, ?_⟩
  apply mean_bounds
  · intro h0
    have := congrArg List.length h0
    simp [Mat.ofFn] at this; omega
  · simp [Mat.ofFn]
  · exact hm

/-! ## C08: a patch compared with itself -/

/-- C08: NSIM of a non-empty patch with itself succeeds with band means 1, deviations 0 and similarity 1. -/
theorem C08_nsim_self (p : Profile) (m : Mat ℝ) (wf : m.WF) (hn : 0 < m.nrows) (hc : 0 < m.ncols) :
    ∃ r, measurePatchSimilarity p m m = .ok r ∧ r.freqBandMeans = List.replicate m.nrows 1 ∧
      r.freqBandStddevs = List.replicate m.nrows 0 ∧ r.similarity = 1 := by
  refine ⟨_, measurePatchSimilarity_eq p m m wf wf ⟨rfl, rfl⟩ hn hc, ?_, ?_, ?_⟩
  all_goals
    have hrow : ∀ r ∈ (Mat.ofFn m.nrows m.ncols fun i j => simCell (m.near i j) (m.near i j)).rows,
        ∀ x ∈ r, x = 1 := by
      intro r hr x hx
      obtain ⟨i, _, rfl⟩ := mem_rows_ofFn hr
      obtain ⟨j, _, rfl⟩ := List.mem_map.mp hx
      exact simCell_self _
    have hlen : ∀ r ∈ (Mat.ofFn m.nrows m.ncols fun i j => simCell (m.near i j) (m.near i j)).rows,
        r.length = m.ncols := Mat.ofFn_wf _ _ _
    have hl : (Mat.ofFn m.nrows m.ncols fun i j => simCell (m.near i j) (m.near i j)).rows.length = m.nrows :=
      Mat.ofFn_nrows _ _ _
    have hc' : (m.ncols : ℝ) ≠ 0 := by positivity
    have hn' : (m.nrows : ℝ) ≠ 0 := by positivity
    have hmeans : ∀ x ∈ (Mat.ofFn m.nrows m.ncols fun i j => simCell (m.near i j) (m.near i j)).rows.map
        (fun r => Flt.sum r / Flt.ofNat m.ncols), x = 1 := by
      intro x hx
      obtain ⟨r, hr, rfl⟩ := List.mem_map.mp hx
      simp only [real_sum, real_ofNat]
      rw [sum_of_all_one (hrow r hr), hlen r hr, div_self hc']
  · refine List.eq_replicate_iff.mpr ⟨by simp [PatchSim.new, hl], hmeans⟩
  · refine List.eq_replicate_iff.mpr ⟨by simp [PatchSim.new, hl], ?_⟩
    intro x hx
    obtain ⟨r, hr, rfl⟩ := List.mem_map.mp hx
    rw [stdRow_real]; exact sampleStd_ones (hrow r hr)
  · simp only [PatchSim.new, real_sum, real_ofNat] at hmeans ⊢
    rw [sum_of_all_one hmeans]
    simp only [List.length_map, hl]
    exact div_self hn'

/-- C08: the NaN-avoidance branch is never taken in exact arithmetic: the windowed variance of any patch is non-negative
in every cell, so the product of two of them is. -/
theorem C08_variance_nonneg (p : Profile) (m sq mu musq : Mat ℝ) (wf : m.WF) (hn : 0 < m.nrows) (hc : 0 < m.ncols)
    (h1 : Mat.zip (· * ·) m m = .ok sq) (h2 : conv2d p nsimWindow m = .ok mu) (h3 : conv2d p nsimWindow sq = .ok musq) :
    ∀ r j, r < m.nrows → j < m.ncols → 0 ≤ musq.at r j - mu.at r j * mu.at r j := by
  intro r j hr hj
  have e := wf.eq_ofFn
  have k1 := nsimConv p m.nrows m.ncols hn hc m.at
  have k2 := Mat.ofFn_zip (· * ·) m.nrows m.ncols m.at m.at
  rw [← e] at k1 k2
  rw [k2] at h1
  cases h1
  rw [k1] at h2
  cases h2
  rw [nsimConv p m.nrows m.ncols hn hc] at h3
  cases h3
  rw [Mat.ofFn_at _ _ _ _ _ hr hj, Mat.ofFn_at _ _ _ _ _ hr hj]
  have e1 : (Mat.ofFn m.nrows m.ncols fun i j => m.at i j * m.at i j).near r j =
      fun u v => m.near r j u v * m.near r j u v := by
    funext u v
    rw [Mat.ofFn_near _ _ _ _ _ _ _ hn hc]; rfl
  rw [e1]
  exact nsim_var_nonneg _

example : ∃ m : Mat ℝ, m.WF ∧ 0 < m.nrows ∧ 0 < m.ncols ∧ m.at 0 0 ≠ m.at 1 1 := by
  refine ⟨⟨3, [[1, 2, 3], [4, 5, 6]]⟩, ?_, by decide, by decide, ?_⟩
  · intro r hr; simp at hr; rcases hr with rfl | rfl <;> rfl
  · norm_num [Mat.at]

/-! ## C09: symmetry -/

/-- C09: swapping the two patches changes neither band means, nor deviations, nor the similarity. -/
theorem C09_nsim_symmetric (p : Profile) (a b : Mat ℝ) (wa : a.WF) (wb : b.WF) (r : PatchSim ℝ)
    (h : measurePatchSimilarity p a b = .ok r) :
    ∃ r', measurePatchSimilarity p b a = .ok r' ∧ r'.freqBandMeans = r.freqBandMeans ∧
      r'.freqBandStddevs = r.freqBandStddevs ∧ r'.similarity = r.similarity := by
  obtain ⟨hs, hn, hc⟩ := measure_ok_inv h
  rw [measurePatchSimilarity_eq p a b wa wb hs hn hc] at h
  cases h
  have hs' : b.SameShape a := ⟨hs.1.symm, hs.2.symm⟩
  refine ⟨_, measurePatchSimilarity_eq p b a wb wa hs' (by rw [hs'.1]; exact hn) (by rw [hs'.2]; exact hc), ?_⟩
  have e : (fun i j => simCell (b.near i j) (a.near i j)) = fun i j => simCell (a.near i j) (b.near i j) := by
    funext i j; exact simCell_comm _ _
  rw [e, hs'.1, hs'.2]
  exact ⟨rfl, rfl, rfl⟩

/-- The hypotheses of C07 and C09 are met by two different patches. -/
example : ∃ (a b : Mat ℝ) (r : PatchSim ℝ), a.WF ∧ b.WF ∧ a ≠ b ∧ measurePatchSimilarity .checked a b = .ok r := by
  have wa : (⟨3, [[1, 2, 3], [4, 5, 6]]⟩ : Mat ℝ).WF := by
    intro r hr; simp at hr; rcases hr with rfl | rfl <;> rfl
  have wb : (⟨3, [[0, 2, 3], [4, 7, 6]]⟩ : Mat ℝ).WF := by
    intro r hr; simp at hr; rcases hr with rfl | rfl <;> rfl
  obtain ⟨r, hr⟩ := C07_total .checked _ _ wa wb ⟨rfl, rfl⟩ (by decide) (by decide)
  exact ⟨_, _, r, wa, wb, by simp, hr⟩

/-! ## C10, per patch -/

/-- C10, per patch: the reported band deviations are the sample standard deviations (divisor `n - 1`) of the rows of the
similarity map. -/
theorem C10_patch_std (p : Profile) (ref deg sm : Mat ℝ) (r : PatchSim ℝ)
    (hsm : simMap p ref deg = .ok sm) (h : measurePatchSimilarity p ref deg = .ok r) :
    r.freqBandStddevs = sm.rows.map sampleStd ∧ ∀ x ∈ r.freqBandStddevs, 0 ≤ x := by
  unfold measurePatchSimilarity at h
  rw [hsm] at h
  simp only [ok_bind] at h
  obtain ⟨en, _, h⟩ := bind_ok h
  obtain ⟨means, _, h⟩ := bind_ok h
  obtain ⟨sim, _, h⟩ := bind_ok h
  cases h
  have e : (stdRow : List ℝ → ℝ) = sampleStd := funext stdRow_real
  constructor
  · simp [PatchSim.new, e]
  · intro x hx
    simp only [PatchSim.new, e] at hx
    obtain ⟨row, _, rfl⟩ := List.mem_map.mp hx
    exact Real.sqrt_nonneg _

/-- The hypotheses of `C10_patch_std` are met. -/
example : ∃ (a b sm : Mat ℝ) (r : PatchSim ℝ), a ≠ b ∧ simMap .checked a b = .ok sm ∧
    measurePatchSimilarity .checked a b = .ok r := by
  have wa : (⟨3, [[1, 2, 3], [4, 5, 6]]⟩ : Mat ℝ).WF := by
    intro r hr; simp at hr; rcases hr with rfl | rfl <;> rfl
  have wb : (⟨3, [[0, 2, 3], [4, 7, 6]]⟩ : Mat ℝ).WF := by
    intro r hr; simp at hr; rcases hr with rfl | rfl <;> rfl
  obtain ⟨r, hr⟩ := C07_total .checked _ _ wa wb ⟨rfl, rfl⟩ (by decide) (by decide)
  exact ⟨_, _, _, r, by simp, simMap_eq .checked _ _ wa wb ⟨rfl, rfl⟩ (by decide) (by decide), hr⟩

end Visqol
