import Verif.Lemmas.NsimReal
import Verif.Spec.Nsim

/-! # What the patch comparison computes (C65) -/

namespace Visqol
open Finset

theorem nsimAvg_window (x : Nat → Nat → ℝ) : nsimAvg x = ∑ u ∈ range 3, ∑ v ∈ range 3, Spec.weight u v * x u v := by
  rw [nsimAvg_real, Finset.sum_range]
  refine Finset.sum_congr rfl fun u _ => ?_
  rw [Finset.sum_range]
  refine Finset.sum_congr rfl fun v _ => ?_
  congr 1
  unfold nsimW Spec.weight
  simp only [Fin.ext_iff, Fin.val_one]

theorem near_around (m : Mat ℝ) (i j : Nat) : m.near i j = Spec.around m.nrows m.ncols m.at i j := rfl

theorem localMean_eq (m : Mat ℝ) (i j : Nat) : nsimAvg (m.near i j) = Spec.localMean m.nrows m.ncols m.at i j := nsimAvg_window _

theorem localCov_eq {a b : Mat ℝ} (hs : a.SameShape b) (i j : Nat) :
    nsimAvg (fun r c => a.near i j r c * b.near i j r c) - nsimAvg (a.near i j) * nsimAvg (b.near i j) =
      Spec.localCov a.nrows a.ncols a.at b.at i j := by
  rw [nsim_cov, Fintype.sum_prod_type]
  unfold Spec.localCov
  rw [Finset.sum_range]
  refine Finset.sum_congr rfl fun u _ => ?_
  rw [Finset.sum_range]
  refine Finset.sum_congr rfl fun v _ => ?_
  rw [localMean_eq, localMean_eq, near_around, near_around, ← hs.1, ← hs.2]
  congr 1
  unfold nsimW Spec.weight
  simp only [Fin.ext_iff, Fin.val_one]

theorem localCov_nonneg (a : Mat ℝ) (i j : Nat) : 0 ≤ Spec.localCov a.nrows a.ncols a.at a.at i j := by
  rw [← localCov_eq ⟨rfl, rfl⟩]
  exact nsim_var_nonneg _

theorem simCell_spec {a b : Mat ℝ} (hs : a.SameShape b) (i j : Nat) :
    simCell (a.near i j) (b.near i j) =
      Spec.intensity a.nrows a.ncols a.at b.at i j * Spec.structural a.nrows a.ncols a.at b.at i j := by
  rw [simCell_real, localCov_eq hs, localCov_eq ⟨rfl, rfl⟩, localCov_eq ⟨rfl, rfl⟩, localMean_eq, localMean_eq, ← hs.1, ← hs.2,
    Real.sqrt_mul (localCov_nonneg a i j), nsimC1_real, nsimC3_real]
  unfold Spec.intensity Spec.structural
  rw [← mul_assoc 2]
  norm_num

/-- The comparison in the model (where patches of different shapes are a panic, see `Mat.zip`). -/
theorem measure_formula (p : Profile) {ref deg : Mat ℝ} (wr : ref.WF) (wd : deg.WF) :
    ((∃ r, measurePatchSimilarity p ref deg = .ok r) ↔ ref.SameShape deg ∧ 0 < ref.nrows ∧ 0 < ref.ncols) ∧
    ∀ r, measurePatchSimilarity p ref deg = .ok r →
      r.freqBandMeans = (List.range ref.nrows).map (fun b => mean (Spec.bandSimilarities ref.nrows ref.ncols ref.at deg.at b)) ∧
      r.freqBandStddevs = (List.range ref.nrows).map (fun b => sampleStd (Spec.bandSimilarities ref.nrows ref.ncols ref.at deg.at b)) ∧
      r.freqBandDegEnergy = (List.range ref.nrows).map (fun b => mean ((List.range ref.ncols).map (deg.at b))) ∧
      r.similarity = mean r.freqBandMeans := by
  refine ⟨⟨fun ⟨r, h⟩ => measure_ok_inv h, fun ⟨hs, hn, hc⟩ => ⟨_, measurePatchSimilarity_eq p ref deg wr wd hs hn hc⟩⟩, fun r h => ?_⟩
  obtain ⟨hs, hn, hc⟩ := measure_ok_inv h
  rw [measurePatchSimilarity_eq p ref deg wr wd hs hn hc] at h
  cases h
  have e : (fun i j => simCell (ref.near i j) (deg.near i j)) = fun i j =>
      Spec.intensity ref.nrows ref.ncols ref.at deg.at i j * Spec.structural ref.nrows ref.ncols ref.at deg.at i j :=
    funext fun i => funext fun j => simCell_spec hs i j
  rw [e]
  refine ⟨?_, ?_, ?_, ?_⟩
  · simp [PatchSim.new, Mat.ofFn, mean, Spec.bandSimilarities]
  · simp [PatchSim.new, Mat.ofFn, Spec.bandSimilarities, stdRow_real]
  · have hd : deg.rows = (List.range ref.nrows).map fun i => (List.range ref.ncols).map (deg.at i) := by
      conv_lhs => rw [wd.eq_ofFn]
      rw [hs.1, hs.2]
      rfl
    simp only [PatchSim.new, hd, List.map_map]
    refine List.map_congr_left fun b _ => ?_
    simp [mean, hs.2]
  · simp [PatchSim.new, Mat.ofFn, mean]

/-- C65: comparing two patches of the same shape succeeds exactly if they are not empty, and then band `b` has as mean and
deviation the mean and the sample standard deviation of the similarities of that band; the similarity of the patches is the mean of
the band means; the reported energy is the mean level of the degraded patch's band. -/
theorem C65_formula (p : Profile) {ref deg : Mat ℝ} (wr : ref.WF) (wd : deg.WF) (hs : ref.SameShape deg) :
    ((∃ r, measurePatchSimilarity p ref deg = .ok r) ↔ 0 < ref.nrows ∧ 0 < ref.ncols) ∧
    ∀ r, measurePatchSimilarity p ref deg = .ok r →
      r.freqBandMeans = (List.range ref.nrows).map (fun b => mean (Spec.bandSimilarities ref.nrows ref.ncols ref.at deg.at b)) ∧
      r.freqBandStddevs = (List.range ref.nrows).map (fun b => sampleStd (Spec.bandSimilarities ref.nrows ref.ncols ref.at deg.at b)) ∧
      r.freqBandDegEnergy = (List.range ref.nrows).map (fun b => mean ((List.range ref.ncols).map (deg.at b))) ∧
      r.similarity = mean r.freqBandMeans :=
  ⟨(measure_formula p wr wd).1.trans ⟨fun h => h.2, fun h => ⟨hs, h⟩⟩, (measure_formula p wr wd).2⟩

/-- The statement is about more than trivial patches: two different patches of two bands and three frames are compared. -/
example : ∃ (a b : Mat ℝ) (r : PatchSim ℝ), a ≠ b ∧ a.WF ∧ b.WF ∧ a.SameShape b ∧ measurePatchSimilarity .checked a b = .ok r ∧
    r.freqBandDegEnergy = [5 / 3, 17 / 3] := by
  have wa : (⟨3, [[1, 2, 3], [4, 5, 6]]⟩ : Mat ℝ).WF := by
    intro r hr; simp at hr; rcases hr with rfl | rfl <;> rfl
  have wb : (⟨3, [[0, 2, 3], [4, 7, 6]]⟩ : Mat ℝ).WF := by
    intro r hr; simp at hr; rcases hr with rfl | rfl <;> rfl
  obtain ⟨h1, h2⟩ := C65_formula .checked wa wb ⟨rfl, rfl⟩
  obtain ⟨r, hr⟩ := h1.mpr ⟨by decide, by decide⟩
  refine ⟨_, _, r, by simp, wa, wb, ⟨rfl, rfl⟩, hr, ?_⟩
  rw [(h2 r hr).2.2.1]
  simp [mean, List.range_succ, Mat.at, Mat.nrows]
  norm_num

end Visqol
