import Verif.Props.Pipeline
import Verif.Props.WidebandScore
import Verif.Props.Witness2

/-! # A perfect score means identical levels (C97) -/

set_option linter.unusedSectionVars false

namespace Visqol

open Finset Spec

/-! ## The window can be undone -/

theorem localMean_avg (n c : ℕ) (f : ℕ → ℕ → ℝ) (i j : ℕ) : localMean n c f i j = nsimAvg (around n c f i j) := (nsimAvg_window _).symm

theorem localCov_avg (n c : ℕ) (f g : ℕ → ℕ → ℝ) (i j : ℕ) :
    nsimAvg (fun u v => around n c f i j u v * around n c g i j u v) - nsimAvg (around n c f i j) * nsimAvg (around n c g i j) =
      localCov n c f g i j := by
  rw [nsim_cov, Fintype.sum_prod_type]
  unfold localCov
  rw [Finset.sum_range]
  refine Finset.sum_congr rfl fun u _ => ?_
  rw [Finset.sum_range]
  refine Finset.sum_congr rfl fun v _ => ?_
  rw [localMean_avg, localMean_avg]
  congr 1
  unfold nsimW weight
  simp only [Fin.ext_iff, Fin.val_one]

theorem intensity_bounds (n c : ℕ) (f g : ℕ → ℕ → ℝ) (i j : ℕ) : -1 < intensity n c f g i j ∧ intensity n c f g i j ≤ 1 := by
  unfold intensity
  apply ratio_bounds (by norm_num)
  generalize localMean n c f i j = a
  generalize localMean n c g i j = b
  rw [abs_le]
  constructor <;> nlinarith [sq_nonneg (a - b), sq_nonneg (a + b)]

theorem structural_bounds (n c : ℕ) (f g : ℕ → ℕ → ℝ) (i j : ℕ) : -1 < structural n c f g i j ∧ structural n c f g i j ≤ 1 := by
  unfold structural
  apply ratio_bounds (by norm_num)
  have h := nsim_cauchy (around n c f i j) (around n c g i j)
  rw [localCov_avg, localCov_avg, localCov_avg] at h
  rwa [Real.sqrt_mul] at h
  rw [← localCov_avg]
  exact nsim_var_nonneg _

theorem localMean_sub (n c : ℕ) (f g : ℕ → ℕ → ℝ) (i j : ℕ) :
    localMean n c f i j - localMean n c g i j = localMean n c (fun i j => f i j - g i j) i j := by
  unfold localMean around
  simp only [← Finset.sum_sub_distrib, mul_sub]

/-- The centre of the window outweighs the rest. -/
theorem localMean_centre {n c : ℕ} {h : ℕ → ℕ → ℝ} {i j : ℕ} (hi : i < n) (hj : j < c)
    (hm : ∀ i' < n, ∀ j' < c, |h i' j'| ≤ |h i j|) : (2 * 0.619485845753726 - 1) * |h i j| ≤ |localMean n c h i j| := by
  have key : ∀ u v, |around n c h i j u v| ≤ |h i j| := fun u v => hm _ (by omega) _ (by omega)
  have hc : around n c h i j 1 1 = h i j := by
    unfold around
    rw [Nat.add_sub_cancel, Nat.add_sub_cancel, min_eq_left (by omega), min_eq_left (by omega)]
  have e : localMean n c h i j = 0.619485845753726 * h i j + 0.0838251475442633 * (around n c h i j 0 1 + around n c h i j 1 0 +
      around n c h i j 1 2 + around n c h i j 2 1) + 0.0113033910173052 * (around n c h i j 0 0 + around n c h i j 0 2 +
      around n c h i j 2 0 + around n c h i j 2 2) := by
    unfold localMean weight
    simp only [Finset.sum_range_succ, Finset.sum_range_zero]
    rw [hc]
    norm_num
    ring
  rw [e]
  obtain ⟨k00, m00⟩ := abs_le.mp (key 0 0)
  obtain ⟨k01, m01⟩ := abs_le.mp (key 0 1)
  obtain ⟨k02, m02⟩ := abs_le.mp (key 0 2)
  obtain ⟨k10, m10⟩ := abs_le.mp (key 1 0)
  obtain ⟨k12, m12⟩ := abs_le.mp (key 1 2)
  obtain ⟨k20, m20⟩ := abs_le.mp (key 2 0)
  obtain ⟨k21, m21⟩ := abs_le.mp (key 2 1)
  obtain ⟨k22, m22⟩ := abs_le.mp (key 2 2)
  generalize around n c h i j 0 0 = a00 at *
  generalize around n c h i j 0 1 = a01 at *
  generalize around n c h i j 0 2 = a02 at *
  generalize around n c h i j 1 0 = a10 at *
  generalize around n c h i j 1 2 = a12 at *
  generalize around n c h i j 2 0 = a20 at *
  generalize around n c h i j 2 1 = a21 at *
  generalize around n c h i j 2 2 = a22 at *
  clear key hm hc e
  rcases abs_cases (h i j) with ⟨e1, _⟩ | ⟨e1, _⟩
  · refine le_trans ?_ (le_abs_self _)
    generalize |h i j| = D at *
    generalize h i j = x at *
    subst e1
    norm_num
    linarith
  · refine le_trans ?_ (neg_le_abs _)
    generalize |h i j| = D at *
    generalize h i j = x at *
    subst e1
    norm_num
    linarith

/-- If all windowed averages differ by at most `δ`, all levels differ by at most `4.19 δ`. -/
theorem levels_of_means {n c : ℕ} {f g : ℕ → ℕ → ℝ} {δ : ℝ}
    (h : ∀ i < n, ∀ j < c, |localMean n c f i j - localMean n c g i j| ≤ δ) : ∀ i < n, ∀ j < c, |f i j - g i j| ≤ 4.19 * δ := by
  intro i hi j hj
  obtain ⟨⟨a, b⟩, hab, hmax⟩ := Finset.exists_max_image (range n ×ˢ range c) (fun x => |f x.1 x.2 - g x.1 x.2|)
    ⟨(i, j), by simp [hi, hj]⟩
  simp only [Finset.mem_product, Finset.mem_range] at hab hmax
  have k := localMean_centre (h := fun i j => f i j - g i j) hab.1 hab.2 fun i' hi' j' hj' => hmax (i', j') ⟨hi', hj'⟩
  have k2 := h a hab.1 b hab.2
  rw [localMean_sub] at k2
  have k3 := hmax (i, j) ⟨hi, hj⟩
  have k4 := k.trans k2
  dsimp only at k3 k4
  have k5 := abs_nonneg (f a b - g a b)
  generalize |f a b - g a b| = D at *
  generalize |f i j - g i j| = d at *
  norm_num at k4 ⊢
  linarith

/-! ## From the similarity to the levels -/

theorem near_of_mean {l : List ℝ} {ε : ℝ} (h : ∀ x ∈ l, x ≤ 1) (hm : 1 - ε ≤ mean l) : ∀ x ∈ l, 1 - l.length * ε ≤ x := by
  intro x hx
  have hp : (0 : ℝ) < l.length := by exact_mod_cast List.length_pos_of_mem hx
  unfold mean at hm
  rw [le_div_iff₀ hp] at hm
  have hs : l.sum ≤ x + (l.length - 1) := by
    clear hm hp
    induction l with
    | nil => cases hx
    | cons a l ih =>
      rw [List.sum_cons, List.length_cons]
      push_cast
      rcases List.mem_cons.mp hx with rfl | hx
      · have := list_sum_le (l := l) (b := 1) fun y hy => h y (by simp [hy])
        linarith
      · have := ih (fun y hy => h y (by simp [hy])) hx
        have := h a (by simp)
        linarith
  linarith

theorem cell_le_one (n c : ℕ) (f g : ℕ → ℕ → ℝ) (i j : ℕ) : intensity n c f g i j * structural n c f g i j ≤ 1 :=
  (prod_bounds (intensity_bounds n c f g i j) (structural_bounds n c f g i j)).2

theorem bandMean_le_one (n c : ℕ) (f g : ℕ → ℕ → ℝ) (i : ℕ) : mean (bandSimilarities n c f g i) ≤ 1 := by
  have h := list_sum_le (l := bandSimilarities n c f g i) (b := 1) (by
    intro x hx
    obtain ⟨j, _, rfl⟩ := List.mem_map.mp hx
    exact cell_le_one ..)
  unfold mean
  exact div_le_one_of_le₀ (by linarith) (by positivity)

/-- If the similarity misses 1 by `ε`, every cell misses 1 by at most `ε` times the number of cells. -/
theorem Scored.cells {nb c : ℕ} {A B : ℕ → ℕ → ℝ} {q : PatchSim ℝ} (h : Scored nb c A B q) {ε : ℝ} (hq : 1 - ε ≤ q.similarity) :
    ∀ b < nb, ∀ j < c, 1 - nb * c * ε ≤ intensity nb c A B b j * structural nb c A B b j := by
  intro b hb j hj
  rw [h.similarity, h.means] at hq
  have h1 := near_of_mean (by
    intro x hx
    obtain ⟨b, _, rfl⟩ := List.mem_map.mp hx
    exact bandMean_le_one ..) hq _ (List.mem_map.mpr ⟨b, List.mem_range.mpr hb, rfl⟩)
  rw [List.length_map, List.length_range] at h1
  have h2 := near_of_mean (by
    intro x hx
    obtain ⟨j, _, rfl⟩ := List.mem_map.mp hx
    exact cell_le_one ..) h1 _ (List.mem_map.mpr ⟨j, List.mem_range.mpr hj, rfl⟩)
  unfold bandSimilarities at h2
  rw [List.length_map, List.length_range] at h2
  linarith

theorem one_of_prod {a b : ℝ} (ha : -1 < a ∧ a ≤ 1) (hb : -1 < b ∧ b ≤ 1) (h : 1 ≤ a * b) : a = 1 := by
  by_contra hne
  have h1 : a < 1 := lt_of_le_of_ne ha.2 hne
  rcases le_total 0 a with h0 | h0
  · nlinarith [ha.1, hb.1, hb.2]
  · nlinarith [ha.1, hb.1, hb.2]

theorem intensity_gap (n c : ℕ) (f g : ℕ → ℕ → ℝ) (i j : ℕ) :
    (localMean n c f i j - localMean n c g i j) ^ 2 =
      (1 - intensity n c f g i j) * (localMean n c f i j ^ 2 + localMean n c g i j ^ 2 + 0.01 ^ 2) := by
  unfold intensity
  generalize localMean n c f i j = a
  generalize localMean n c g i j = b
  have : a ^ 2 + b ^ 2 + 0.01 ^ 2 ≠ 0 := by positivity
  field_simp
  ring

/-- Scores of a comparison with similarity 1 are those of identical levels. -/
theorem Scored.levels_eq {nb c : ℕ} {A B : ℕ → ℕ → ℝ} {q : PatchSim ℝ} (h : Scored nb c A B q) (hq : q.similarity = 1) :
    ∀ b < nb, ∀ j < c, A b j = B b j := by
  have hc := h.cells (ε := 0) (by rw [hq]; norm_num)
  have hm : ∀ b < nb, ∀ j < c, |localMean nb c A b j - localMean nb c B b j| ≤ 0 := by
    intro b hb j hj
    have h1 := hc b hb j hj
    rw [mul_zero, sub_zero] at h1
    have h2 := intensity_gap nb c A B b j
    rw [one_of_prod (intensity_bounds ..) (structural_bounds ..) h1, sub_self, zero_mul] at h2
    rw [pow_eq_zero_iff (by norm_num)] at h2
    rw [h2, abs_zero]
  intro b hb j hj
  have := levels_of_means hm b hb j hj
  rw [mul_zero] at this
  have := abs_nonpos_iff.mp this
  linarith

theorem localMean_range {n c : ℕ} {f : ℕ → ℕ → ℝ} {L : ℝ} (hn : 0 < n) (hc : 0 < c) (h : ∀ i < n, ∀ j < c, 0 ≤ f i j ∧ f i j ≤ L)
    (i j : ℕ) : 0 ≤ localMean n c f i j ∧ localMean n c f i j ≤ L := by
  rw [localMean_avg]
  constructor
  · rw [← nsimAvg_const 0]
    exact nsimAvg_mono fun u _ v _ => (h _ (by omega) _ (by omega)).1
  · conv_rhs => rw [← nsimAvg_const L]
    exact nsimAvg_mono fun u _ v _ => (h _ (by omega) _ (by omega)).2

/-- Scores of a comparison with similarity close to 1 are those of nearly identical levels. -/
theorem Scored.levels_near {nb c : ℕ} {A B : ℕ → ℕ → ℝ} {q : PatchSim ℝ} (h : Scored nb c A B q) {ε L : ℝ}
    (hA : ∀ b < nb, ∀ j < c, 0 ≤ A b j ∧ A b j ≤ L) (hB : ∀ b < nb, ∀ j < c, 0 ≤ B b j ∧ B b j ≤ L) (hq : 1 - ε ≤ q.similarity) :
    ∀ b < nb, ∀ j < c, |A b j - B b j| ≤ 4.19 * Real.sqrt (nb * c * ε * (2 * L ^ 2 + 0.0001)) := by
  have hc := h.cells hq
  refine levels_of_means fun b hb j hj => ?_
  have h1 := hc b hb j hj
  obtain ⟨a0, a1⟩ := localMean_range (by omega) (by omega) hA b j
  obtain ⟨b0, b1⟩ := localMean_range (by omega) (by omega) hB b j
  have hI : 0 ≤ intensity nb c A B b j := by unfold intensity; positivity
  have h2 := intensity_gap nb c A B b j
  have h3 : 1 - intensity nb c A B b j ≤ nb * c * ε := by
    have := mul_le_mul_of_nonneg_left (structural_bounds nb c A B b j).2 hI
    linarith
  have h4 := (intensity_bounds nb c A B b j).2
  apply Real.abs_le_sqrt
  rw [h2]
  generalize localMean nb c A b j = u at *
  generalize localMean nb c B b j = v at *
  have hu : u ^ 2 ≤ L ^ 2 := by gcongr
  have hv : v ^ 2 ≤ L ^ 2 := by gcongr
  apply mul_le_mul h3 _ (by positivity) (by linarith)
  norm_num
  linarith

/-- C97, patches: two patches have similarity 1 only if they have the same levels everywhere. -/
theorem C97_patch {p : Profile} {ref deg : Mat ℝ} {r : PatchSim ℝ} (wr : ref.WF) (wd : deg.WF)
    (h : measurePatchSimilarity p ref deg = .ok r) : r.similarity = 1 ↔ ref = deg := by
  obtain ⟨hs, hn, hc⟩ := measure_ok_inv h
  have hsc := scored_of_measure wr wd h rfl rfl rfl rfl
  constructor
  · intro h1
    have he := hsc.levels_eq h1
    rw [wr.eq_ofFn, wd.eq_ofFn, ← hs.1, ← hs.2]
    unfold Mat.ofFn
    congr 1
    refine List.map_congr_left fun i hi => List.map_congr_left fun j hj => he i (List.mem_range.mp hi) j (List.mem_range.mp hj)
  · rintro rfl
    obtain ⟨r', h', _, _, h1⟩ := C08_nsim_self p ref wr hn hc
    rw [h] at h'
    cases h'
    exact h1

/-- C97, close: if the levels of two patches lie between 0 and `L` and their similarity misses 1 by at most `ε`, then no level differs
by more than `4.19 √(N ε (2 L² + 0.0001))`, where `N` is the number of levels. -/
theorem C97_close {p : Profile} {ref deg : Mat ℝ} {r : PatchSim ℝ} (wr : ref.WF) (wd : deg.WF)
    (h : measurePatchSimilarity p ref deg = .ok r) {ε L : ℝ} (hL : ∀ i < ref.nrows, ∀ j < ref.ncols,
      (0 ≤ ref.at i j ∧ ref.at i j ≤ L) ∧ 0 ≤ deg.at i j ∧ deg.at i j ≤ L) (h1 : 1 - ε ≤ r.similarity) :
    ∀ i < ref.nrows, ∀ j < ref.ncols,
      |ref.at i j - deg.at i j| ≤ 4.19 * Real.sqrt (ref.nrows * ref.ncols * ε * (2 * L ^ 2 + 0.0001)) :=
  (scored_of_measure wr wd h rfl rfl rfl rfl).levels_near (fun b hb j hj => (hL b hb j hj).1) (fun b hb j hj => (hL b hb j hj).2) h1

/-! ## Runs -/

/-- C97, results: `vnsim` is 1 exactly if every reported patch has similarity 1; if `vnsim` misses 1 by at most `ε`, each of the `k`
reported patches misses 1 by at most `k ε`. -/
theorem C97_result {p : Profile} {m m' : Manager ℝ} {ref deg : AudioSignal ℝ} {res : SimilarityResult ℝ}
    (h : m.computeResults p ref deg = .ok (m', res)) :
    (res.vnsim = 1 ↔ ∀ q ∈ res.patchSims, q.similarity = 1) ∧
    ∀ ε, 1 - ε ≤ res.vnsim → ∀ q ∈ res.patchSims, 1 - res.patchSims.length * ε ≤ q.similarity := by
  have hv := C86_mean h
  have hb := (C07_run_bounds h).1
  have near : ∀ ε, 1 - ε ≤ res.vnsim → ∀ q ∈ res.patchSims, 1 - res.patchSims.length * ε ≤ q.similarity := by
    intro ε hε q hq
    rw [hv] at hε
    have := near_of_mean (by
      intro x hx
      obtain ⟨q, hq, rfl⟩ := List.mem_map.mp hx
      exact (hb q hq).2.2) hε _ (List.mem_map_of_mem hq)
    rwa [List.length_map] at this
  refine ⟨⟨fun h1 q hq => ?_, fun h1 => ?_⟩, near⟩
  · have := near 0 (by rw [h1]; norm_num) q hq
    rw [mul_zero, sub_zero] at this
    exact le_antisymm (hb q hq).2.2 this
  · have hne : res.patchSims ≠ [] := (C05_shapes h).2.2.2.2.1
    have hp : (res.patchSims.length : ℝ) ≠ 0 := by
      have := List.length_pos_iff.mpr hne
      positivity
    rw [hv, mean, List.length_map, sum_of_all_one, List.length_map, div_self hp]
    intro x hx
    obtain ⟨q, hq, rfl⟩ := List.mem_map.mp hx
    exact h1 q hq

theorem fitMos_eq (s : Bool) {x : ℝ} (h : x ≤ 1) : fitMos s x =
    (11559455 / 10 ^ 7 + Real.exp (46851153 / 10 ^ 7 * (x - 7655232 / 10 ^ 7))) * (if s then 12031409 / 10 ^ 7 else 1) := by
  have h1 : Real.exp (46851153 / 10 ^ 7 * (x - 7655232 / 10 ^ 7)) ≤ 299982 / 100000 :=
    (Real.exp_le_exp.mpr (by norm_num; linarith)).trans exp_fit_tight
  have h0 := Real.exp_pos (46851153 / 10 ^ 7 * (x - 7655232 / 10 ^ 7))
  unfold fitMos
  generalize Real.exp (46851153 / 10 ^ 7 * (x - 7655232 / 10 ^ 7)) = e at *
  rw [min_eq_right (by split <;> norm_num <;> linarith), max_eq_right (by split <;> norm_num <;> linarith)]

theorem moslqo_strict {p₁ p₂ : Profile} {s : Bool} {m₁ m₁' m₂ m₂' : Manager ℝ} {ref₁ deg₁ ref₂ deg₂ : AudioSignal ℝ}
    {r₁ r₂ : SimilarityResult ℝ} (hm₁ : m₁.mapper = .speech s) (hm₂ : m₂.mapper = .speech s)
    (h₁ : m₁.computeResults p₁ ref₁ deg₁ = .ok (m₁', r₁)) (h₂ : m₂.computeResults p₂ ref₂ deg₂ = .ok (m₂', r₂))
    (h : r₁.vnsim < r₂.vnsim) (h15 : 15 / 100 ≤ r₂.vnsim) : r₁.moslqo < r₂.moslqo := by
  have b₁ := (C07_run_bounds h₁).2.2.2
  have b₂ := (C07_run_bounds h₂).2.2.2
  rw [moslqo_eq hm₁ h₁, moslqo_eq hm₂ h₂, widebandMos_fit, widebandMos_fit, if_neg (not_lt.mpr h15)]
  split
  · have := fitMos_lowest s (x := r₂.vnsim) (by linarith)
    have : (1 : ℝ) < lowestScore s := by unfold lowestScore; split <;> norm_num
    linarith
  · rw [fitMos_eq s b₁, fitMos_eq s b₂]
    have := Real.exp_lt_exp.mpr (show (46851153 / 10 ^ 7 * (r₁.vnsim - 7655232 / 10 ^ 7) : ℝ) < 46851153 / 10 ^ 7 * (r₂.vnsim - 7655232 / 10 ^ 7) by
      apply mul_lt_mul_of_pos_left _ (by norm_num)
      linarith)
    apply mul_lt_mul_of_pos_right _ (by split <;> norm_num)
    linarith

/-- C03, order: among wideband results with the same scaling the MOS determines the order of the `vnsim`: a result whose `vnsim` is at
least 0.15 and whose MOS is not the larger one does not have the larger `vnsim` either. -/
theorem C03_order {p₁ p₂ : Profile} {s : Bool} {m₁ m₁' m₂ m₂' : Manager ℝ} {ref₁ deg₁ ref₂ deg₂ : AudioSignal ℝ}
    {r₁ r₂ : SimilarityResult ℝ} (hm₁ : m₁.mapper = .speech s) (hm₂ : m₂.mapper = .speech s)
    (h₁ : m₁.computeResults p₁ ref₁ deg₁ = .ok (m₁', r₁)) (h₂ : m₂.computeResults p₂ ref₂ deg₂ = .ok (m₂', r₂))
    (h15 : 15 / 100 ≤ r₂.vnsim) (h : r₂.moslqo ≤ r₁.moslqo) : r₂.vnsim ≤ r₁.vnsim :=
  not_lt.mp fun hlt => absurd (moslqo_strict hm₁ hm₂ h₁ h₂ hlt h15) (not_lt.mpr h)

/-- C97, scores: a wideband comparison gets the MOS of the reference compared with itself exactly if every patch has similarity 1. -/
theorem C97_mos {p : Profile} {s : Bool} {m m' m₁ m₁' : Manager ℝ} {ref deg ref₁ : AudioSignal ℝ} {res res₁ : SimilarityResult ℝ}
    (hm : m.mapper = .speech s) (hm₁ : m₁.mapper = .speech s) (hpc : m₁.patchCreator = .vad 30 ∨ m₁.patchCreator = .image 20)
    (hlen : ref₁.data.length + 30 * m₁.searchWindow < 2147483647) (h : m.computeResults p ref deg = .ok (m', res))
    (h₁ : m₁.computeResults p ref₁ ref₁ = .ok (m₁', res₁)) :
    res.moslqo = res₁.moslqo ↔ ∀ q ∈ res.patchSims, q.similarity = 1 := by
  have v₁ := (C11_perfect hpc hlen h₁).2.2.1
  rw [← (C97_result h).1]
  constructor
  · intro he
    by_contra hne
    have hlt := lt_of_le_of_ne (C07_run_bounds h).2.2.2 hne
    have := moslqo_strict hm hm₁ h h₁ (by rw [v₁]; exact hlt) (by rw [v₁]; norm_num)
    linarith
  · intro he
    exact le_antisymm (C03_monotone hm hm₁ h h₁ (by rw [he, v₁])) (C03_monotone hm₁ hm h₁ h (by rw [he, v₁]))

namespace Setting
variable (S : Setting)

/-- `q` compares stretches with identical levels: `P` frames of the two spectrograms, from frame `i` of the reference and frame `o` of
the degraded signal on, or the spectrograms of the same stretches after one has been delayed to match the other. -/
inductive Identical (q : PatchSim ℝ) : Prop
  | coarse (i o : ℕ) (hi : i + S.P ≤ S.c) (ho : o < S.d) (h1 : q.refStart = i * S.frame) (h2 : q.degStart = o * S.frame)
      (h : ∀ b < S.nb, ∀ j < S.P, S.A b (i + j) = if o + j < S.d then S.B b (o + j) else 0)
  | realigned (i o n : ℕ) (hi : i + S.P ≤ S.c) (ho : o < S.d) (u v : List ℝ) (z : ℤ) (off L : ℕ) (A B : ℕ → ℕ → ℝ)
      (hu : u = cut S.x (i * S.W / 4) ((i + S.P) * S.W / 4)) (hv : v = cut S.y (o * S.W / 4) ((o + S.P) * S.W / 4))
      (hz : IsDelay S.pad u v z) (hL : off + L = min u.length (shift z v).length)
      (hp : ArePrepared S.nb S.sr S.lo S.hi S.W S.hop n n (cut u off (off + L)) (cut (shift z v) off (off + L)) A B)
      (h1 : q.refStart = i * S.frame + z.toNat / S.sr) (h2 : q.degStart = o * S.frame + (-z).toNat / S.sr)
      (h : ∀ b < S.nb, ∀ j < n, A b j = B b j)

end Setting

theorem Setting.Origin.identical {S : Setting} {q : PatchSim ℝ} (h : S.Origin q) (h1 : q.similarity = 1) : S.Identical q := by
  cases h with
  | silent i hi e1 e2 hs =>
    rw [hs.similarity] at h1
    norm_num [real_sci] at h1
  | coarse i o hi ho hc n r hr hlt => exact .coarse i o hi ho hc.refStart hc.degStart (hc.scores.levels_eq h1)
  | realigned i o n hi ho hr r hc hle =>
    obtain ⟨u, v, z, off, L, A, B, hu, hv, hz, _, hL, hp, hs, e1, e2, _, _⟩ := hr
    exact .realigned i o n hi ho u v z off L A B hu hv hz hL hp e1 e2 (hs.levels_eq h1)

/-- C97, signals: if `vnsim` is 1, then for every reported patch the levels compared are identical, either those of the spectrograms of
the two signals (after delaying and scaling the degraded one) or those of the stretches aligned once more. -/
theorem C97_levels {p : Profile} {pad : ℕ → ℕ} (hpad : ∀ n, 1 ≤ n → n ≤ 2 ^ 63 → nextPowTwo p n = .ok (pad n))
    {m m' : Manager ℝ} {ref deg : AudioSignal ℝ} {res : SimilarityResult ℝ} (h0 : 0 < m.filterBank.minFreq)
    (h1 : m.filterBank.minFreq < upperLimit m.numBands ref.sampleRate) (hsr : ref.sampleRate = deg.sampleRate)
    (h101 : 101 ≤ ref.sampleRate) (h32 : ref.sampleRate < 4294967296) (hpc : m.patchCreator = .vad 30 ∨ m.patchCreator = .image 20)
    (hlen : ref.data.length + deg.data.length < 2 ^ 56) (hdeg : 2 ≤ deg.data.length)
    (h : m.computeResults p ref deg = .ok (m', res)) (hv : res.vnsim = 1) :
    ∃ (z : ℤ) (g : ℝ) (y : List ℝ) (c d : ℕ) (A B : ℕ → ℕ → ℝ), IsDelay pad ref.data deg.data z ∧ 0 < g ∧
      y = (shift z deg.data).map (g * ·) ∧
      ArePrepared m.numBands ref.sampleRate m.filterBank.minFreq (upperLimit m.numBands ref.sampleRate) (windowSamples ref.sampleRate)
        (windowSamples ref.sampleRate / 4) c d ref.data y A B ∧
      ∀ q ∈ res.patchSims, Setting.Identical ⟨pad, m.numBands, ref.sampleRate, m.filterBank.minFreq,
        upperLimit m.numBands ref.sampleRate, windowSamples ref.sampleRate, windowSamples ref.sampleRate / 4,
        m.patchCreator.patchSize, c, d, ref.data, y, A, B⟩ q := by
  obtain ⟨z, g, y, c, d, A, B, hz, hg, hy, _, hp, key⟩ := C71_origin hpad h0 h1 hsr h101 h32 hpc hlen hdeg h
  exact ⟨z, g, y, c, d, A, B, hz, hg, hy, hp, fun q hq => (key q hq).identical ((C97_result h).1.mp hv q hq)⟩

/-- A file compared with itself meets the hypotheses of `C97_levels`. -/
example (p : Profile) : ∃ (pad : ℕ → ℕ) (m m' : Manager ℝ) (res : SimilarityResult ℝ), (∀ n, 1 ≤ n → n ≤ 2 ^ 63 → nextPowTwo p n = .ok (pad n)) ∧
    0 < m.filterBank.minFreq ∧ m.filterBank.minFreq < upperLimit m.numBands (steadySignal 40000 20000).sampleRate ∧
    (m.patchCreator = .vad 30 ∨ m.patchCreator = .image 20) ∧
    m.computeResults p (steadySignal 40000 20000) (steadySignal 40000 20000) = .ok (m', res) ∧ res.vnsim = 1 := by
  obtain ⟨pad, hpad⟩ := pad_exists p
  obtain ⟨⟨m', res, h⟩, _⟩ := wideband_run p (le_refl 40000) (by omega) (le_refl 40000) (by omega)
    (by omega : (0 : Int) < 20000) demo_i16.1 demo_i16.1 demo_ref demo_ref (u := false) rfl
  have h1 := (C11_perfect (.inl rfl) (by rw [steady_length]; show 40000 + 30 * 60 < _; norm_num) h).2.2.1
  refine ⟨pad, _, m', res, hpad, ?_, ?_, .inl rfl, h, h1⟩
  · show 0 < (Flt.toOfScientific.ofScientific 500 true 1 : ℝ)
    rw [real_sci]; norm_num
  · rw [steady_rate]
    show (Flt.toOfScientific.ofScientific 500 true 1 : ℝ) < upperLimit 21 16000
    rw [real_sci]; unfold upperLimit; norm_num

/-- The hypotheses of `C03_order` and `C97_mos`: two files compared with themselves get the same MOS. -/
example (p : Profile) : ∃ m m₁ r₁ m₂ r₂, Manager.new demoWorld 21 (.wideband false) 60 = .ok m ∧ m.mapper = .speech true ∧
    m.patchCreator = .vad 30 ∧
    m.computeResults p (steadySignal 40000 20000) (steadySignal 40000 20000) = .ok (m₁, r₁) ∧
    m.computeResults p (steadySignal 40000 9000) (steadySignal 40000 9000) = .ok (m₂, r₂) ∧
    15 / 100 ≤ r₂.vnsim ∧ r₂.vnsim ≤ r₁.vnsim ∧ r₂.moslqo = r₁.moslqo := by
  obtain ⟨⟨m₁, r₁, h₁⟩, _⟩ := wideband_run p (le_refl 40000) (by omega) (le_refl 40000) (by omega)
    (by omega : (0 : Int) < 20000) demo_i16.1 demo_i16.1 demo_ref demo_ref (u := false) rfl
  obtain ⟨⟨m₂, r₂, h₂⟩, _⟩ := wideband_run p (le_refl 40000) (by omega) (le_refl 40000) (by omega)
    (by omega : (0 : Int) < 9000) demo_i16.2 demo_i16.2 (world := ⟨fun _ => steadyFile 40000 9000, fun _ => none⟩) (r := "") (d := "") rfl rfl (u := false) rfl
  have hl : (steadySignal 40000 20000).data.length + 30 * 60 < 2147483647 := by rw [steady_length]; norm_num
  have hl' : (steadySignal 40000 9000).data.length + 30 * 60 < 2147483647 := by rw [steady_length]; norm_num
  generalize steadySignal 40000 20000 = ref at *
  generalize steadySignal 40000 9000 = ref' at *
  have e2 := (C11_perfect (.inl rfl) hl' h₂).2.2.1
  have hmos : r₂.moslqo = r₁.moslqo := (C97_mos rfl rfl (.inl rfl) hl h₂ h₁).mpr ((C97_result h₂).1.mp e2)
  have k : 15 / 100 ≤ r₂.vnsim := by rw [e2]; norm_num
  exact ⟨_, m₁, r₁, m₂, r₂, rfl, rfl, rfl, h₁, h₂, k, C03_order rfl rfl h₁ h₂ k hmos.le, hmos⟩

/-- Two patches that differ in one level by 2 are compared, and their similarity is below 1. -/
example : ∃ (a b : Mat ℝ) (r : PatchSim ℝ), a.WF ∧ b.WF ∧ measurePatchSimilarity .checked a b = .ok r ∧ r.similarity ≠ 1 ∧
    ∀ i < a.nrows, ∀ j < a.ncols, (0 ≤ a.at i j ∧ a.at i j ≤ 7) ∧ 0 ≤ b.at i j ∧ b.at i j ≤ 7 := by
  have wa : (⟨3, [[1, 2, 3], [4, 5, 6]]⟩ : Mat ℝ).WF := by
    intro r hr; simp at hr; rcases hr with rfl | rfl <;> rfl
  have wb : (⟨3, [[1, 2, 3], [4, 7, 6]]⟩ : Mat ℝ).WF := by
    intro r hr; simp at hr; rcases hr with rfl | rfl <;> rfl
  obtain ⟨r, hr⟩ := (measure_formula .checked wa wb).1.mpr ⟨⟨rfl, rfl⟩, by decide, by decide⟩
  refine ⟨_, _, r, wa, wb, hr, ?_, ?_⟩
  · rw [Ne, C97_patch wa wb hr]
    simp
  · intro i hi j hj
    have hi : i < 2 := hi
    have hj : j < 3 := hj
    interval_cases i <;> interval_cases j <;> simp [Mat.at] <;> norm_num

end Visqol
