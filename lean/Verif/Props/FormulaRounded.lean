import Verif.Lemmas.IeeeFormula
import Verif.Lemmas.IeeeSum
import Verif.Props.NsimFormula
import Verif.Props.SelfRounded

/-! # The patch comparison follows its formula in floating point (C65, C07) -/

namespace Visqol
open Ieee

/-- Around a cell both patches vary, with a windowed variance of at least 1/16, or one of them is zero throughout the window. -/
def Spec.NotNearlyFlat (n c : ℕ) (f g : ℕ → ℕ → ℝ) (i j : ℕ) : Prop :=
  (1 / 16 ≤ Spec.localCov n c f f i j ∧ 1 / 16 ≤ Spec.localCov n c g g i j) ∨
    (∀ u < 3, ∀ v < 3, Spec.around n c f i j u v = 0) ∨ ∀ u < 3, ∀ v < 3, Spec.around n c g i j u v = 0

section
variable {F : Type} [Flt F] [Ieee F]

/-- The levels of a patch as real numbers. -/
noncomputable def realMat (m : Mat F) : Mat ℝ := ⟨m.ncols, m.rows.map (List.map number)⟩

theorem realMat_at (m : Mat F) (i j : ℕ) : (realMat m).at i j = number (m.at i j) := by
  have h0 : number (0.0 : F) = 0 := number_of val_0
  unfold realMat Mat.at
  simp only [List.getD_eq_getElem?_getD, List.getElem?_map]
  cases m.rows[i]? with
  | none => simp [h0]
  | some r =>
    simp only [Option.map_some, Option.getD_some, List.getElem?_map]
    cases r[j]? with
    | none => simp [h0]
    | some a => simp

theorem realMat_nrows (m : Mat F) : (realMat m).nrows = m.nrows := by simp [realMat, Mat.nrows]

theorem realMat_near (m : Mat F) (i j u v : ℕ) : (realMat m).near i j u v = number (m.near i j u v) := by
  unfold Mat.near
  rw [realMat_at, realMat_nrows]
  rfl

theorem textured_of {ref deg : Mat F} (hs : ref.SameShape deg) {i j : ℕ}
    (h : Spec.NotNearlyFlat ref.nrows ref.ncols (fun i j => number (ref.at i j)) (fun i j => number (deg.at i j)) i j) :
    Textured ((realMat ref).near i j) ((realMat deg).near i j) := by
  have e1 : (fun i j => number (ref.at i j)) = (realMat ref).at := funext fun i => funext fun j => (realMat_at ref i j).symm
  have e2 : (fun i j => number (deg.at i j)) = (realMat deg).at := funext fun i => funext fun j => (realMat_at deg i j).symm
  rw [e1, e2] at h
  have n1 : (realMat ref).nrows = ref.nrows := realMat_nrows _
  have n2 : (realMat deg).nrows = ref.nrows := (realMat_nrows _).trans hs.1.symm
  have c1 : (realMat ref).ncols = ref.ncols := rfl
  have c2 : (realMat deg).ncols = ref.ncols := hs.2.symm
  unfold Textured
  rw [localCov_eq ⟨rfl, rfl⟩, localCov_eq ⟨rfl, rfl⟩, near_around, near_around, n1, n2, c1, c2]
  exact h

/-- C65, floating point: two patches of the same shape, with levels of at most 256 dB, that around every cell both vary or of which one is
zero, are compared with success; every band mean is within 0.00001 of the mean that the formula of the similarity index gives for the
levels as real numbers, and the similarity within 0.00001 of the mean of those means. -/
theorem C65_rounded [Libm F] (p : Profile) {ref deg : Mat F} (wr : ref.WF) (wd : deg.WF) (hs : ref.SameShape deg) (hn : 0 < ref.nrows)
    (hc : 0 < ref.ncols) (hn2 : ref.nrows ≤ 2 ^ 20) (hc2 : ref.ncols ≤ 2 ^ 20) (hlr : LevelsWithin 256 ref) (hld : LevelsWithin 256 deg)
    (ht : ∀ i < ref.nrows, ∀ j < ref.ncols,
      Spec.NotNearlyFlat ref.nrows ref.ncols (fun i j => number (ref.at i j)) (fun i j => number (deg.at i j)) i j) :
    ∃ r, measurePatchSimilarity p ref deg = .ok r ∧ r.freqBandMeans.length = ref.nrows ∧
      (∀ b < ref.nrows, ∃ x, val (r.freqBandMeans.getD b 0.0) = .fin x ∧
        |x - mean (Spec.bandSimilarities ref.nrows ref.ncols (fun i j => number (ref.at i j)) (fun i j => number (deg.at i j)) b)| ≤ 1 / 100000) ∧
      ∃ x, val r.similarity = .fin x ∧ |x - mean ((List.range ref.nrows).map fun b =>
        mean (Spec.bandSimilarities ref.nrows ref.ncols (fun i j => number (ref.at i j)) (fun i j => number (deg.at i j)) b))| ≤ 1 / 100000 := by
  have pw : ∀ {m : Mat F}, LevelsWithin 256 m → m.Pw 8 := fun h r hr a ha => by
    obtain ⟨x, h1, h2⟩ := h r hr a ha
    exact ⟨x, h1, by norm_num; exact h2⟩
  have pr := pw hlr
  have pd := pw hld
  have near : ∀ {m : Mat F}, m.Pw 8 → ∀ i j u v, Is (m.near i j u v) ((realMat m).near i j u v) ∧ |(realMat m).near i j u v| ≤ 2 ^ 8 := by
    intro m h i j u v
    obtain ⟨x, h1, h2⟩ := h.near i j u v
    rw [realMat_near, number_of h1]
    exact ⟨h1, h2⟩
  have e1 : (fun i j => number (ref.at i j)) = (realMat ref).at := funext fun i => funext fun j => (realMat_at ref i j).symm
  have e2 : (fun i j => number (deg.at i j)) = (realMat deg).at := funext fun i => funext fun j => (realMat_at deg i j).symm
  have sh : (realMat ref).SameShape (realMat deg) := ⟨by rw [realMat_nrows, realMat_nrows]; exact hs.1, hs.2⟩
  have cell : ∀ i < ref.nrows, ∀ j < ref.ncols, ∃ z, Is (simCell (ref.near i j) (deg.near i j)) z ∧
      |z - simCell ((realMat ref).near i j) ((realMat deg).near i j)| ≤ 1 / 2 ^ 17 := fun i hi j hj =>
    simCell_close (fun u v => (near pr i j u v).1) (fun u v => (near pd i j u v).1) (fun u v => (near pr i j u v).2)
      (fun u v => (near pd i j u v).2) (textured_of hs (ht i hi j hj))
  have spec : ∀ b, Spec.bandSimilarities ref.nrows ref.ncols (fun i j => number (ref.at i j)) (fun i j => number (deg.at i j)) b =
      (List.range ref.ncols).map fun j => simCell ((realMat ref).near b j) ((realMat deg).near b j) := by
    intro b
    rw [e1, e2]
    unfold Spec.bandSimilarities
    refine List.map_congr_left fun j _ => ?_
    rw [simCell_spec sh, realMat_nrows]
    rfl
  have b1 : ∀ (u v : ℕ → ℕ → ℝ), |simCell u v| ≤ 1 := fun u v => abs_le.mpr ⟨(simCell_bounds u v).1.le, (simCell_bounds u v).2⟩
  have rows : ∀ b < ref.nrows, ∃ z, Is (Flt.sum ((List.range ref.ncols).map fun j => simCell (ref.near b j) (deg.near b j)) / Flt.ofNat ref.ncols) z ∧
      |z - mean (Spec.bandSimilarities ref.nrows ref.ncols (fun i j => number (ref.at i j)) (fun i j => number (deg.at i j)) b)| ≤
        1 / 2 ^ 17 + 1 / 10 ^ 8 := by
    intro b hb
    rw [spec b]
    have := mean_unit_near (F := F) (l := (List.range ref.ncols).map fun j => simCell (ref.near b j) (deg.near b j))
      (ys := (List.range ref.ncols).map fun j => simCell ((realMat ref).near b j) ((realMat deg).near b j)) (ε := 1 / 2 ^ 17)
      (by
        rw [List.forall₂_map_left_iff, List.forall₂_map_right_iff, List.forall₂_same]
        intro j hj
        exact ⟨(b1 _ _).trans (by norm_num), cell b hb j (List.mem_range.mp hj)⟩) (by norm_num) (by simpa using hc) (by simpa using hc2)
    simpa only [List.length_map, List.length_range, mean] using this
  have mb : ∀ b, |mean (Spec.bandSimilarities ref.nrows ref.ncols (fun i j => number (ref.at i j)) (fun i j => number (deg.at i j)) b)| ≤ 1 := by
    intro b
    rw [spec b]
    have hb := mean_bounds (l := (List.range ref.ncols).map fun j => simCell ((realMat ref).near b j) ((realMat deg).near b j))
      (by
        intro h0
        have := congrArg List.length h0
        simp at this; omega) rfl
      (fun x hx => by
        obtain ⟨j, _, rfl⟩ := List.mem_map.mp hx
        exact simCell_bounds _ _)
    rw [abs_le]
    exact ⟨hb.1.le, hb.2⟩
  refine ⟨_, measurePatchSimilarity_eq p ref deg wr wd hs hn hc, ?_⟩
  have em : (Mat.ofFn ref.nrows ref.ncols fun i j => simCell (ref.near i j) (deg.near i j)).rows.map (fun r => Flt.sum r / Flt.ofNat ref.ncols) =
      (List.range ref.nrows).map fun b => Flt.sum ((List.range ref.ncols).map fun j => simCell (ref.near b j) (deg.near b j)) / Flt.ofNat ref.ncols := by
    simp [Mat.ofFn]
  rw [em]
  refine ⟨by simp [PatchSim.new], fun b hb => ?_, ?_⟩
  · obtain ⟨z, h1, h2⟩ := rows b hb
    refine ⟨z, ?_, h2.trans (by norm_num)⟩
    simp only [PatchSim.new, List.getD_eq_getElem?_getD, List.getElem?_map, List.getElem?_range hb, Option.map_some, Option.getD_some]
    exact h1
  · have := mean_unit_near (F := F) (l := (List.range ref.nrows).map fun b =>
        Flt.sum ((List.range ref.ncols).map fun j => simCell (ref.near b j) (deg.near b j)) / Flt.ofNat ref.ncols)
      (ys := (List.range ref.nrows).map fun b =>
        mean (Spec.bandSimilarities ref.nrows ref.ncols (fun i j => number (ref.at i j)) (fun i j => number (deg.at i j)) b))
      (ε := 1 / 2 ^ 17 + 1 / 10 ^ 8)
      (by
        rw [List.forall₂_map_left_iff, List.forall₂_map_right_iff, List.forall₂_same]
        intro b hb
        exact ⟨(mb b).trans (by norm_num), rows b (List.mem_range.mp hb)⟩) (by norm_num) (by simpa using hn) (by simpa using hn2)
    obtain ⟨z, h1, h2⟩ := this
    rw [List.length_map, List.length_range] at h1
    refine ⟨z, h1, ?_⟩
    rw [mean]
    exact h2.trans (by norm_num)

/-- C07, floating point: for such patches every band mean and the similarity lie between -1.00001 and 1.00001. -/
theorem C07_rounded [Libm F] (p : Profile) {ref deg : Mat F} (wr : ref.WF) (wd : deg.WF) (hs : ref.SameShape deg) (hn : 0 < ref.nrows)
    (hc : 0 < ref.ncols) (hn2 : ref.nrows ≤ 2 ^ 20) (hc2 : ref.ncols ≤ 2 ^ 20) (hlr : LevelsWithin 256 ref) (hld : LevelsWithin 256 deg)
    (ht : ∀ i < ref.nrows, ∀ j < ref.ncols,
      Spec.NotNearlyFlat ref.nrows ref.ncols (fun i j => number (ref.at i j)) (fun i j => number (deg.at i j)) i j) :
    ∃ r, measurePatchSimilarity p ref deg = .ok r ∧ r.freqBandMeans.length = ref.nrows ∧
      (∀ a ∈ r.freqBandMeans, ∃ x, val a = .fin x ∧ -(1 + 1 / 100000) ≤ x ∧ x ≤ 1 + 1 / 100000) ∧
      ∃ x, val r.similarity = .fin x ∧ -(1 + 1 / 100000) ≤ x ∧ x ≤ 1 + 1 / 100000 := by
  obtain ⟨r, h1, h2, h3, x, h4, h5⟩ := C65_rounded p wr wd hs hn hc hn2 hc2 hlr hld ht
  have e1 : (fun i j => number (ref.at i j)) = (realMat ref).at := funext fun i => funext fun j => (realMat_at ref i j).symm
  have e2 : (fun i j => number (deg.at i j)) = (realMat deg).at := funext fun i => funext fun j => (realMat_at deg i j).symm
  have sh : (realMat ref).SameShape (realMat deg) := ⟨by rw [realMat_nrows, realMat_nrows]; exact hs.1, hs.2⟩
  have wfr : ∀ {m : Mat F}, m.WF → (realMat m).WF := by
    intro m h r hr
    obtain ⟨q, hq, rfl⟩ := List.mem_map.mp hr
    rw [List.length_map]; exact h q hq
  have hn' : 0 < (realMat ref).nrows := by rw [realMat_nrows]; exact hn
  obtain ⟨q, hq⟩ := C07_total p (realMat ref) (realMat deg) (wfr wr) (wfr wd) sh hn' hc
  obtain ⟨f1, _, _, f4⟩ := (measure_formula p (wfr wr) (wfr wd)).2 q hq
  obtain ⟨g1, g2⟩ := C07_nsim_bounds p _ _ (wfr wr) (wfr wd) q hq
  rw [e1, e2] at h3 h5
  rw [realMat_nrows, show (realMat ref).ncols = ref.ncols from rfl] at f1
  refine ⟨r, h1, h2, fun a ha => ?_, x, h4, ?_⟩
  · obtain ⟨b, hb, rfl⟩ := List.getElem_of_mem ha
    obtain ⟨y, y1, y2⟩ := h3 b (by omega)
    rw [List.getD_eq_getElem?_getD, List.getElem?_eq_getElem hb, Option.getD_some] at y1
    have := g1 _ (by rw [f1]; exact List.mem_map_of_mem (List.mem_range.mpr (by omega : b < ref.nrows)))
    obtain ⟨k1, k2⟩ := abs_le.mp y2
    exact ⟨y, y1, by linarith [this.1, k1], by linarith [this.2, k2]⟩
  · rw [f4, f1] at g2
    obtain ⟨k1, k2⟩ := abs_le.mp h5
    exact ⟨by linarith [g2.1, k1], by linarith [g2.2, k2]⟩

/-- The mean of many levels. -/
theorem mean_levels [Libm F] {v : List F} (hv : ∀ a ∈ v, ∃ x, val a = .fin x ∧ |x| ≤ 256) (h0 : 0 < v.length) (h1 : v.length ≤ 2 ^ 20) :
    ∃ y, Is (Flt.sum v / Flt.ofNat v.length) y ∧ |y - mean (v.map number)| ≤ 1 / 1000000 := by
  have e := vals_number fun a ha => (hv a ha).imp fun _ h => h.1
  have b : ∀ x ∈ v.map number, |x| ≤ 256 := by
    intro x hx
    obtain ⟨a, ha, rfl⟩ := List.mem_map.mp hx
    obtain ⟨x, h1, h2⟩ := hv a ha
    rw [number_of h1]; exact h2
  unfold mean
  rw [List.length_map]
  have hE := abs_sum_le b
  rw [List.length_map] at hE
  obtain ⟨y, hy, hye⟩ := Libm.sum_acc v (v.map number) 256 e (by norm_num) (by
    have := two_pow_mono (m := 8) (n := 900) (by norm_num)
    norm_num at this ⊢; exact this) b (by omega)
  have hc1 : (1 : ℝ) ≤ v.length := by exact_mod_cast h0
  have hc2 : (v.length : ℝ) ≤ 2 ^ 20 := by exact_mod_cast h1
  have hn := val_nat (F := F) (n := v.length) (by omega)
  generalize (v.map number).sum = S at *
  generalize (v.length : ℝ) = n at *
  have hnp : 0 < n := by linarith
  have hd : |y / n - S / n| ≤ 256 * n / 2 ^ 50 := by
    rw [← sub_div, abs_div, abs_of_pos hnp, div_le_iff₀ hnp]
    have e2 : 256 * n / 2 ^ 50 * n = n ^ 2 * 256 / 2 ^ 50 := by ring
    rw [e2]; exact hye
  have hS : |S / n| ≤ 256 := by
    rw [abs_div, abs_of_pos hnp, div_le_iff₀ hnp]; linarith
  generalize S / n = Y at *
  obtain ⟨k1, k2⟩ := abs_le.mp hd
  obtain ⟨j1, j2⟩ := abs_le.mp hS
  obtain ⟨z, hz, hze⟩ := rnd_err F (x := y / n) (B := 2 ^ 9) (by rw [abs_le]; constructor <;> norm_num at * <;> linarith) (by norm_num)
    (two_pow_mono (by norm_num))
  refine ⟨z, (Is.div (show Is _ y from hy) hn hnp.ne').trans hz, ?_⟩
  have := abs_add_le (z - y / n) (y / n - Y)
  rw [sub_add_sub_cancel] at this
  refine this.trans ((add_le_add hze hd).trans ?_)
  norm_num at *; linarith

/-- C65, floating point: whatever the levels (of at most 256 dB), the reported energies are within 0.000001 of the mean levels of the degraded
patch's bands. -/
theorem C65_energy_rounded [Libm F] (p : Profile) {ref deg : Mat F} (wr : ref.WF) (wd : deg.WF) (hs : ref.SameShape deg) (hn : 0 < ref.nrows)
    (hc : 0 < ref.ncols) (hc2 : ref.ncols ≤ 2 ^ 20) (hld : LevelsWithin 256 deg) :
    ∃ r, measurePatchSimilarity p ref deg = .ok r ∧ r.freqBandDegEnergy.length = ref.nrows ∧
      ∀ b < ref.nrows, ∃ x, val (r.freqBandDegEnergy.getD b 0.0) = .fin x ∧
        |x - mean ((List.range ref.ncols).map fun j => number (deg.at b j))| ≤ 1 / 1000000 := by
  refine ⟨_, measurePatchSimilarity_eq p ref deg wr wd hs hn hc, ?_, fun b hb => ?_⟩
  · simp only [PatchSim.new, List.length_map]
    exact hs.1.symm
  · have hb' : b < deg.rows.length := by
      have : ref.nrows = deg.rows.length := hs.1
      omega
    have hm := List.getElem_mem hb'
    have hl := wd _ hm
    obtain ⟨x, h1, h2⟩ := mean_levels (hld _ hm) (by rw [hl, ← hs.2]; exact hc) (by rw [hl, ← hs.2]; exact hc2)
    refine ⟨x, ?_, ?_⟩
    · simp only [PatchSim.new, List.getD_eq_getElem?_getD, List.getElem?_map, List.getElem?_eq_getElem hb', Option.map_some, Option.getD_some]
      rw [← hl]
      exact h1
    · have e : (List.range ref.ncols).map (fun j => number (deg.at b j)) = deg.rows[b].map number := by
        apply List.ext_getElem
        · simp [hl, hs.2]
        · intro j _ h4
          rw [List.length_map] at h4
          simp [Mat.at, List.getElem?_eq_getElem hb', List.getElem?_eq_getElem h4]
      rw [e]
      exact h2

/-- The hypotheses of these: a checkerboard of 0 and 100 dB compared with the opposite checkerboard. -/
example : ∃ ref deg : Mat F, ref.WF ∧ deg.WF ∧ ref.SameShape deg ∧ ref.nrows = 2 ∧ ref.ncols = 2 ∧ LevelsWithin 256 ref ∧
    LevelsWithin 256 deg ∧ number (ref.at 0 0) ≠ number (deg.at 0 0) ∧ ∀ i < ref.nrows, ∀ j < ref.ncols,
      1 / 16 ≤ Spec.localCov ref.nrows ref.ncols (fun i j => number (ref.at i j)) (fun i j => number (ref.at i j)) i j ∧
      1 / 16 ≤ Spec.localCov ref.nrows ref.ncols (fun i j => number (deg.at i j)) (fun i j => number (deg.at i j)) i j := by
  have h100 : val (100.0 : F) = .fin 100 := by
    have := val_litnat (F := F) (m := 1000) (e := 1) (k := 100) (by norm_num) (by norm_num); exact_mod_cast this
  have n0 : number (0.0 : F) = 0 := number_of val_0
  have n1 : number (100.0 : F) = 100 := number_of h100
  have w : ∀ r : List F, (r = [0.0, 100.0] ∨ r = [100.0, 0.0]) → ∀ a ∈ r, ∃ x, val a = .fin x ∧ |x| ≤ 256 := by
    rintro r (rfl | rfl) a ha <;> simp only [List.mem_cons, List.not_mem_nil, or_false] at ha <;> rcases ha with rfl | rfl
    · exact ⟨0, val_0, by norm_num⟩
    · exact ⟨100, h100, by norm_num⟩
    · exact ⟨100, h100, by norm_num⟩
    · exact ⟨0, val_0, by norm_num⟩
  refine ⟨⟨2, [[0.0, 100.0], [100.0, 0.0]]⟩, ⟨2, [[100.0, 0.0], [0.0, 100.0]]⟩, ?_, ?_, ⟨rfl, rfl⟩, rfl, rfl, ?_, ?_, ?_, ?_⟩
  · intro r hr; simp at hr; rcases hr with rfl | rfl <;> rfl
  · intro r hr; simp at hr; rcases hr with rfl | rfl <;> rfl
  · intro r hr
    simp only [List.mem_cons, List.not_mem_nil, or_false] at hr
    exact w r hr
  · intro r hr
    simp only [List.mem_cons, List.not_mem_nil, or_false] at hr
    exact w r hr.symm
  · show number (0.0 : F) ≠ number (100.0 : F)
    rw [n0, n1]; norm_num
  · have a00 : number ((⟨2, [[0.0, 100.0], [100.0, 0.0]]⟩ : Mat F).at 0 0) = 0 := n0
    have a01 : number ((⟨2, [[0.0, 100.0], [100.0, 0.0]]⟩ : Mat F).at 0 1) = 100 := n1
    have a10 : number ((⟨2, [[0.0, 100.0], [100.0, 0.0]]⟩ : Mat F).at 1 0) = 100 := n1
    have a11 : number ((⟨2, [[0.0, 100.0], [100.0, 0.0]]⟩ : Mat F).at 1 1) = 0 := n0
    have b00 : number ((⟨2, [[100.0, 0.0], [0.0, 100.0]]⟩ : Mat F).at 0 0) = 100 := n1
    have b01 : number ((⟨2, [[100.0, 0.0], [0.0, 100.0]]⟩ : Mat F).at 0 1) = 0 := n0
    have b10 : number ((⟨2, [[100.0, 0.0], [0.0, 100.0]]⟩ : Mat F).at 1 0) = 0 := n0
    have b11 : number ((⟨2, [[100.0, 0.0], [0.0, 100.0]]⟩ : Mat F).at 1 1) = 100 := n1
    intro i hi j hj
    change i < 2 at hi
    change j < 2 at hj
    interval_cases i <;> interval_cases j <;> constructor <;>
      norm_num [Spec.localCov, Spec.localMean, Spec.around, Spec.weight, Finset.sum_range_succ, Mat.nrows, a00, a01, a10, a11, b00, b01, b10, b11]

end

end Visqol
