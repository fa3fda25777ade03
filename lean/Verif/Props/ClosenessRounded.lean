import Verif.Props.FormulaRounded
import Verif.Props.SmallDifferences

/-! # Close levels and high similarities in floating point (C97, C99) -/

namespace Visqol
open Ieee

section
variable {F : Type} [Flt F] [Ieee F]

theorem realMat_wf {m : Mat F} (h : m.WF) : (realMat m).WF := by
  intro r hr
  obtain ⟨q, hq, rfl⟩ := List.mem_map.mp hr
  rw [List.length_map]; exact h q hq

/-- The result in floating point beside the result of the same comparison in exact arithmetic. -/
theorem measure_beside [Libm F] (p : Profile) {ref deg : Mat F} (wr : ref.WF) (wd : deg.WF) (hs : ref.SameShape deg) (hn : 0 < ref.nrows)
    (hc : 0 < ref.ncols) (hn2 : ref.nrows ≤ 2 ^ 20) (hc2 : ref.ncols ≤ 2 ^ 20) (hlr : LevelsWithin 256 ref) (hld : LevelsWithin 256 deg)
    (ht : ∀ i < ref.nrows, ∀ j < ref.ncols,
      Spec.NotNearlyFlat ref.nrows ref.ncols (fun i j => number (ref.at i j)) (fun i j => number (deg.at i j)) i j) :
    ∃ r q, measurePatchSimilarity p ref deg = .ok r ∧ measurePatchSimilarity p (realMat ref) (realMat deg) = .ok q ∧
      (∀ a ∈ r.freqBandMeans, ∃ x, val a = .fin x ∧ ∃ y ∈ q.freqBandMeans, |x - y| ≤ 1 / 100000) ∧
      ∃ x, val r.similarity = .fin x ∧ |x - q.similarity| ≤ 1 / 100000 := by
  obtain ⟨r, h1, h2, h3, x, h4, h5⟩ := C65_rounded p wr wd hs hn hc hn2 hc2 hlr hld ht
  have e1 : (fun i j => number (ref.at i j)) = (realMat ref).at := funext fun i => funext fun j => (realMat_at ref i j).symm
  have e2 : (fun i j => number (deg.at i j)) = (realMat deg).at := funext fun i => funext fun j => (realMat_at deg i j).symm
  have sh : (realMat ref).SameShape (realMat deg) := ⟨by rw [realMat_nrows, realMat_nrows]; exact hs.1, hs.2⟩
  have hn' : 0 < (realMat ref).nrows := by rw [realMat_nrows]; exact hn
  obtain ⟨q, hq⟩ := C07_total p (realMat ref) (realMat deg) (realMat_wf wr) (realMat_wf wd) sh hn' hc
  obtain ⟨f1, _, _, f4⟩ := (measure_formula p (realMat_wf wr) (realMat_wf wd)).2 q hq
  rw [e1, e2] at h3 h5
  rw [realMat_nrows, show (realMat ref).ncols = ref.ncols from rfl] at f1
  refine ⟨r, q, h1, hq, fun a ha => ?_, x, h4, ?_⟩
  · obtain ⟨b, hb, rfl⟩ := List.getElem_of_mem ha
    obtain ⟨y, y1, y2⟩ := h3 b (by omega)
    rw [List.getD_eq_getElem?_getD, List.getElem?_eq_getElem hb, Option.getD_some] at y1
    exact ⟨y, y1, _, by rw [f1]; exact List.mem_map_of_mem (List.mem_range.mpr (by omega : b < ref.nrows)), y2⟩
  · rw [f4, f1]; exact h5

/-- C97, floating point: if two patches with levels between 0 and `L` (at most 256 dB), that around every cell both vary or of which one is
zero, are given a similarity of at least `1 - ε`, then no level differs by more than `4.19 √(N (ε + 0.00001) (2 L² + 0.0001))`. -/
theorem C97_close_rounded [Libm F] {p : Profile} {ref deg : Mat F} {r : PatchSim F} (wr : ref.WF) (wd : deg.WF)
    (h : measurePatchSimilarity p ref deg = .ok r) (hn2 : ref.nrows ≤ 2 ^ 20) (hc2 : ref.ncols ≤ 2 ^ 20)
    (hlr : LevelsWithin 256 ref) (hld : LevelsWithin 256 deg)
    (ht : ∀ i < ref.nrows, ∀ j < ref.ncols,
      Spec.NotNearlyFlat ref.nrows ref.ncols (fun i j => number (ref.at i j)) (fun i j => number (deg.at i j)) i j)
    {ε L : ℝ} (hL : ∀ i < ref.nrows, ∀ j < ref.ncols,
      (0 ≤ number (ref.at i j) ∧ number (ref.at i j) ≤ L) ∧ 0 ≤ number (deg.at i j) ∧ number (deg.at i j) ≤ L)
    (h1 : 1 - ε ≤ number r.similarity) : ∀ i < ref.nrows, ∀ j < ref.ncols,
      |number (ref.at i j) - number (deg.at i j)| ≤
        4.19 * Real.sqrt (ref.nrows * ref.ncols * (ε + 1 / 100000) * (2 * L ^ 2 + 0.0001)) := by
  obtain ⟨hs, hn, hc⟩ := measure_ok_inv h
  obtain ⟨r', q, a1, a2, _, x, a3, a4⟩ := measure_beside p wr wd hs hn hc hn2 hc2 hlr hld ht
  rw [h] at a1
  cases a1
  rw [number_of a3] at h1
  have := C97_close (realMat_wf wr) (realMat_wf wd) a2 (ε := ε + 1 / 100000) (L := L)
    (by
      intro i hi j hj
      rw [realMat_nrows] at hi
      rw [realMat_at, realMat_at]
      exact hL i hi j hj)
    (by have := (abs_le.mp a4).2; linarith)
  intro i hi j hj
  have := this i (by rw [realMat_nrows]; exact hi) j hj
  rw [realMat_at, realMat_at, realMat_nrows] at this
  exact this

/-- C99, floating point: if no level of two patches of the same shape (at most 256 dB, around every cell both varying or one zero) differs
by more than `e`, the comparison succeeds, and the similarity of every band and of the patch is at least `1 - 11112 e² - 0.00001`. -/
theorem C99_patch_rounded [Libm F] (p : Profile) {ref deg : Mat F} (wr : ref.WF) (wd : deg.WF) (hs : ref.SameShape deg)
    (hn : 0 < ref.nrows) (hc : 0 < ref.ncols) (hn2 : ref.nrows ≤ 2 ^ 20) (hc2 : ref.ncols ≤ 2 ^ 20)
    (hlr : LevelsWithin 256 ref) (hld : LevelsWithin 256 deg)
    (ht : ∀ i < ref.nrows, ∀ j < ref.ncols,
      Spec.NotNearlyFlat ref.nrows ref.ncols (fun i j => number (ref.at i j)) (fun i j => number (deg.at i j)) i j)
    {e : ℝ} (he : ∀ i < ref.nrows, ∀ j < ref.ncols, |number (ref.at i j) - number (deg.at i j)| ≤ e) :
    ∃ r, measurePatchSimilarity p ref deg = .ok r ∧
      (∀ a ∈ r.freqBandMeans, ∃ x, val a = .fin x ∧ 1 - 11112 * e ^ 2 - 1 / 100000 ≤ x) ∧
      ∃ x, val r.similarity = .fin x ∧ 1 - 11112 * e ^ 2 - 1 / 100000 ≤ x := by
  obtain ⟨r, q, a1, a2, a3, x, a4, a5⟩ := measure_beside p wr wd hs hn hc hn2 hc2 hlr hld ht
  obtain ⟨b1, b2⟩ := C99_patch (realMat_wf wr) (realMat_wf wd) a2 (e := e)
    (by
      intro i hi j hj
      rw [realMat_nrows] at hi
      rw [realMat_at, realMat_at]
      exact he i hi j hj)
  refine ⟨r, a1, fun a ha => ?_, x, a4, by have := (abs_le.mp a5).1; linarith⟩
  obtain ⟨x, x1, y, y1, y2⟩ := a3 a ha
  exact ⟨x, x1, by have := (abs_le.mp y2).1; have := b1 y y1; linarith⟩

/-- The hypotheses of these: a checkerboard of 0 and 100 dB compared with one of 0 and 101 dB; no level differs by more than 1, and none
exceeds 101. -/
example : ∃ ref deg : Mat F, ref.WF ∧ deg.WF ∧ ref.SameShape deg ∧ ref.nrows = 2 ∧ ref.ncols = 2 ∧ LevelsWithin 256 ref ∧
    LevelsWithin 256 deg ∧ (∀ i < ref.nrows, ∀ j < ref.ncols,
      Spec.NotNearlyFlat ref.nrows ref.ncols (fun i j => number (ref.at i j)) (fun i j => number (deg.at i j)) i j) ∧
    (∀ i < ref.nrows, ∀ j < ref.ncols,
      (0 ≤ number (ref.at i j) ∧ number (ref.at i j) ≤ 101) ∧ 0 ≤ number (deg.at i j) ∧ number (deg.at i j) ≤ 101) ∧
    (∀ i < ref.nrows, ∀ j < ref.ncols, |number (ref.at i j) - number (deg.at i j)| ≤ 1) ∧ number (ref.at 0 1) ≠ number (deg.at 0 1) := by
  have h100 : val (100.0 : F) = .fin 100 := by
    have := val_litnat (F := F) (m := 1000) (e := 1) (k := 100) (by norm_num) (by norm_num); exact_mod_cast this
  have h101 : val (101.0 : F) = .fin 101 := by
    have := val_litnat (F := F) (m := 1010) (e := 1) (k := 101) (by norm_num) (by norm_num); exact_mod_cast this
  have n0 : number (0.0 : F) = 0 := number_of val_0
  have n1 : number (100.0 : F) = 100 := number_of h100
  have n2 : number (101.0 : F) = 101 := number_of h101
  have a00 : number ((⟨2, [[0.0, 100.0], [100.0, 0.0]]⟩ : Mat F).at 0 0) = 0 := n0
  have a01 : number ((⟨2, [[0.0, 100.0], [100.0, 0.0]]⟩ : Mat F).at 0 1) = 100 := n1
  have a10 : number ((⟨2, [[0.0, 100.0], [100.0, 0.0]]⟩ : Mat F).at 1 0) = 100 := n1
  have a11 : number ((⟨2, [[0.0, 100.0], [100.0, 0.0]]⟩ : Mat F).at 1 1) = 0 := n0
  have b00 : number ((⟨2, [[0.0, 101.0], [101.0, 0.0]]⟩ : Mat F).at 0 0) = 0 := n0
  have b01 : number ((⟨2, [[0.0, 101.0], [101.0, 0.0]]⟩ : Mat F).at 0 1) = 101 := n2
  have b10 : number ((⟨2, [[0.0, 101.0], [101.0, 0.0]]⟩ : Mat F).at 1 0) = 101 := n2
  have b11 : number ((⟨2, [[0.0, 101.0], [101.0, 0.0]]⟩ : Mat F).at 1 1) = 0 := n0
  have w : ∀ (z : F) (y : ℝ), val z = .fin y → |y| ≤ 256 → LevelsWithin 256 (⟨2, [[0.0, z], [z, 0.0]]⟩ : Mat F) := by
    intro z y hz hy r hr a ha
    simp only [List.mem_cons, List.not_mem_nil, or_false] at hr
    rcases hr with rfl | rfl <;> simp only [List.mem_cons, List.not_mem_nil, or_false] at ha <;> rcases ha with rfl | rfl
    · exact ⟨0, val_0, by norm_num⟩
    · exact ⟨y, hz, hy⟩
    · exact ⟨y, hz, hy⟩
    · exact ⟨0, val_0, by norm_num⟩
  refine ⟨⟨2, [[0.0, 100.0], [100.0, 0.0]]⟩, ⟨2, [[0.0, 101.0], [101.0, 0.0]]⟩, ?_, ?_, ⟨rfl, rfl⟩, rfl, rfl, w _ _ h100 (by norm_num),
    w _ _ h101 (by norm_num), ?_, ?_, ?_, ?_⟩
  · intro r hr; simp at hr; rcases hr with rfl | rfl <;> rfl
  · intro r hr; simp at hr; rcases hr with rfl | rfl <;> rfl
  · intro i hi j hj
    change i < 2 at hi
    change j < 2 at hj
    refine .inl ?_
    interval_cases i <;> interval_cases j <;> constructor <;>
      norm_num [Spec.localCov, Spec.localMean, Spec.around, Spec.weight, Finset.sum_range_succ, Mat.nrows, a00, a01, a10, a11, b00, b01, b10, b11]
  · intro i hi j hj
    change i < 2 at hi
    change j < 2 at hj
    interval_cases i <;> interval_cases j <;> norm_num [a00, a01, a10, a11, b00, b01, b10, b11]
  · intro i hi j hj
    change i < 2 at hi
    change j < 2 at hj
    interval_cases i <;> interval_cases j <;> norm_num [a00, a01, a10, a11, b00, b01, b10, b11]
  · rw [a01, b01]; norm_num

end

end Visqol
