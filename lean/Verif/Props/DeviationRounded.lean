import Verif.Lemmas.IeeeWelford
import Verif.Props.FormulaRounded

/-! # The band deviations in floating point (C10, C08, C65) -/

namespace Visqol
open Ieee

section
variable {F : Type} [Flt F] [Ieee F] [Libm F]

/-- C10, floating point: where the cells of the similarity map are of at most 2 and its bands have 2 to 1024 cells, every reported band
deviation is within 0.00005 of the sample standard deviation (divisor `n - 1`) of the band's cells. -/
theorem C10_patch_std_rounded (p : Profile) (ref deg sm : Mat F) (r : PatchSim F) (hsm : simMap p ref deg = .ok sm)
    (h : measurePatchSimilarity p ref deg = .ok r) (hb : LevelsWithin 2 sm) (hc : ∀ row ∈ sm.rows, 2 ≤ row.length ∧ row.length ≤ 2 ^ 10) :
    List.Forall₂ (fun a row => ∃ x, val a = .fin x ∧ |x - sampleStd (row.map number)| ≤ 1 / 20000) r.freqBandStddevs sm.rows := by
  unfold measurePatchSimilarity at h
  rw [hsm] at h
  simp only [ok_bind] at h
  obtain ⟨en, _, h⟩ := bind_ok h
  obtain ⟨means, _, h⟩ := bind_ok h
  obtain ⟨sim, _, h⟩ := bind_ok h
  cases h
  simp only [PatchSim.new]
  rw [List.forall₂_map_left_iff, List.forall₂_same]
  intro row hr
  refine stdRow_close ?_ (hc row hr).1 (hc row hr).2
  rw [List.forall₂_map_right_iff, List.forall₂_same]
  intro a ha
  obtain ⟨x, h1, h2⟩ := hb row hr a ha
  rw [number_of h1]
  exact ⟨h1, h2⟩

/-- C65, floating point: for two patches as in `C65_rounded` of 2 to 1024 columns every reported band deviation is within 0.0001 of the
sample standard deviation of the similarities that the formula gives for the band. -/
theorem C65_deviation_rounded (p : Profile) {ref deg : Mat F} (wr : ref.WF) (wd : deg.WF) (hs : ref.SameShape deg) (hn : 0 < ref.nrows)
    (hc : 2 ≤ ref.ncols) (hc2 : ref.ncols ≤ 2 ^ 10) (hlr : LevelsWithin 256 ref) (hld : LevelsWithin 256 deg)
    (ht : ∀ i < ref.nrows, ∀ j < ref.ncols,
      Spec.NotNearlyFlat ref.nrows ref.ncols (fun i j => number (ref.at i j)) (fun i j => number (deg.at i j)) i j) :
    ∃ r, measurePatchSimilarity p ref deg = .ok r ∧ r.freqBandStddevs.length = ref.nrows ∧
      ∀ b < ref.nrows, ∃ x, val (r.freqBandStddevs.getD b 0.0) = .fin x ∧
        |x - sampleStd (Spec.bandSimilarities ref.nrows ref.ncols (fun i j => number (ref.at i j)) (fun i j => number (deg.at i j)) b)| ≤ 1 / 10000 := by
  have pw : ∀ {m : Mat F}, LevelsWithin 256 m → m.Pw 8 := fun h r hr a ha => by
    obtain ⟨x, h1, h2⟩ := h r hr a ha
    exact ⟨x, h1, by norm_num; exact h2⟩
  have pr := pw hlr
  have pd := pw hld
  have near : ∀ {m : Mat F}, m.Pw 8 → ∀ i j u v, Is (m.near i j u v) ((realMat m).near i j u v) ∧ |(realMat m).near i j u v| ≤ 2 ^ 8 := by
    intro m h i j u v
    obtain ⟨x, h1, h2⟩ := h.near i j u v
    rw [realMat_near, number_of h1]
    exact ⟨h1, h2⟩
  have e1 : (fun i j => number (ref.at i j)) = (realMat ref).at := funext fun i => funext fun j => (realMat_at ref i j).symm
  have e2 : (fun i j => number (deg.at i j)) = (realMat deg).at := funext fun i => funext fun j => (realMat_at deg i j).symm
  have sh : (realMat ref).SameShape (realMat deg) := ⟨by rw [realMat_nrows, realMat_nrows]; exact hs.1, hs.2⟩
  have cell : ∀ i < ref.nrows, ∀ j < ref.ncols, ∃ z, Is (simCell (ref.near i j) (deg.near i j)) z ∧
      |z - simCell ((realMat ref).near i j) ((realMat deg).near i j)| ≤ 1 / 2 ^ 17 := fun i hi j hj =>
    simCell_close (fun u v => (near pr i j u v).1) (fun u v => (near pd i j u v).1) (fun u v => (near pr i j u v).2)
      (fun u v => (near pd i j u v).2) (textured_of hs (ht i hi j hj))
  have spec : ∀ b, Spec.bandSimilarities ref.nrows ref.ncols (fun i j => number (ref.at i j)) (fun i j => number (deg.at i j)) b =
      (List.range ref.ncols).map fun j => simCell ((realMat ref).near b j) ((realMat deg).near b j) := by
    intro b
    rw [e1, e2]
    unfold Spec.bandSimilarities
    refine List.map_congr_left fun j _ => ?_
    rw [simCell_spec sh, realMat_nrows]
    rfl
  refine ⟨_, measurePatchSimilarity_eq p ref deg wr wd hs hn (by omega), ?_, fun b hb => ?_⟩
  · simp [PatchSim.new, Mat.ofFn]
  · have hg : (((Mat.ofFn ref.nrows ref.ncols fun i j => simCell (ref.near i j) (deg.near i j)).rows.map stdRow).getD b 0.0 : F) =
        stdRow ((List.range ref.ncols).map fun j => simCell (ref.near b j) (deg.near b j)) := by
      simp [Mat.ofFn, List.getElem?_range hb]
    simp only [PatchSim.new, hg, spec b]
    have b1 : ∀ (u v : ℕ → ℕ → ℝ), |simCell u v| ≤ 1 := fun u v => abs_le.mpr ⟨(simCell_bounds u v).1.le, (simCell_bounds u v).2⟩
    have hcl : List.Forall₂ (fun a x => Is a x ∧ |x| ≤ 2) ((List.range ref.ncols).map fun j => simCell (ref.near b j) (deg.near b j))
        ((List.range ref.ncols).map fun j => number (simCell (ref.near b j) (deg.near b j))) := by
      rw [List.forall₂_map_left_iff, List.forall₂_map_right_iff, List.forall₂_same]
      intro j hj
      obtain ⟨z, h1, h2⟩ := cell b hb j (List.mem_range.mp hj)
      rw [number_of h1]
      refine ⟨h1, ?_⟩
      have h3 := abs_add_le (z - simCell ((realMat ref).near b j) ((realMat deg).near b j)) (simCell ((realMat ref).near b j) ((realMat deg).near b j))
      rw [sub_add_cancel] at h3
      have h4 := b1 ((realMat ref).near b j) ((realMat deg).near b j)
      have h5 : (1 : ℝ) / 2 ^ 17 ≤ 1 := by norm_num
      linarith
    obtain ⟨d, d1, d2⟩ := stdRow_close hcl (by simpa using hc) (by simpa using hc2)
    refine ⟨d, d1, ?_⟩
    have hnear := sampleStd_near (a := (List.range ref.ncols).map fun j => number (simCell (ref.near b j) (deg.near b j)))
      (b := (List.range ref.ncols).map fun j => simCell ((realMat ref).near b j) ((realMat deg).near b j)) (ε := 1 / 2 ^ 17)
      (by
        rw [List.forall₂_map_left_iff, List.forall₂_map_right_iff, List.forall₂_same]
        intro j hj
        obtain ⟨z, h1, h2⟩ := cell b hb j (List.mem_range.mp hj)
        rw [number_of h1]
        exact h2) (by simpa using hc)
    have h3 := abs_add_le (d - sampleStd ((List.range ref.ncols).map fun j => number (simCell (ref.near b j) (deg.near b j))))
      (sampleStd ((List.range ref.ncols).map fun j => number (simCell (ref.near b j) (deg.near b j))) -
        sampleStd ((List.range ref.ncols).map fun j => simCell ((realMat ref).near b j) ((realMat deg).near b j)))
    rw [sub_add_sub_cancel] at h3
    refine h3.trans ((add_le_add d2 hnear).trans (by norm_num))

theorem self_cells {m : Mat F} (hp : m.Pw 8) :
    ∀ r ∈ (Mat.ofFn m.nrows m.ncols fun i j => simCell (m.near i j) (m.near i j)).rows, r.length = m.ncols ∧
      ∀ a ∈ r, ∃ x, Is a x ∧ |x - 1| ≤ 7 / 10 ^ 5 := by
  intro r hr'
  obtain ⟨i, _, rfl⟩ := List.mem_map.mp hr'
  refine ⟨by simp, fun a ha => ?_⟩
  obtain ⟨j, _, rfl⟩ := List.mem_map.mp ha
  exact simCell_self_near fun r c => hp.near i j r c

/-- C08, floating point: comparing a patch of 2 to 1024 columns with itself gives band deviations from 0 to 0.0003, whatever the levels (of at
most 256 dB). -/
theorem C08_deviation_rounded (p : Profile) (m : Mat F) (wf : m.WF) (hn : 0 < m.nrows) (hc : 2 ≤ m.ncols) (hc2 : m.ncols ≤ 2 ^ 10)
    (hl : LevelsWithin 256 m) :
    ∃ r, measurePatchSimilarity p m m = .ok r ∧ r.freqBandStddevs.length = m.nrows ∧
      ∀ a ∈ r.freqBandStddevs, ∃ x, val a = .fin x ∧ 0 ≤ x ∧ x ≤ 3 / 10000 := by
  have hp : m.Pw 8 := fun r hr a ha => by
    obtain ⟨x, h1, h2⟩ := hl r hr a ha
    exact ⟨x, h1, by norm_num; exact h2⟩
  refine ⟨_, measurePatchSimilarity_eq p m m wf wf ⟨rfl, rfl⟩ hn (by omega), by simp [PatchSim.new, Mat.ofFn], ?_⟩
  intro a ha
  simp only [PatchSim.new] at ha
  obtain ⟨row, hr, rfl⟩ := List.mem_map.mp ha
  obtain ⟨hlen, hcell⟩ := self_cells hp row hr
  have hcl : List.Forall₂ (fun a x => Is a x ∧ |x| ≤ 2) row (row.map number) := by
    rw [List.forall₂_map_right_iff, List.forall₂_same]
    intro a ha
    obtain ⟨x, h1, h2⟩ := hcell a ha
    rw [number_of h1]
    refine ⟨h1, ?_⟩
    obtain ⟨k1, k2⟩ := abs_le.mp h2
    rw [abs_le]; constructor <;> norm_num at * <;> linarith
  obtain ⟨d, d1, d2⟩ := stdRow_close hcl (by omega) (by omega)
  obtain ⟨d', e1, e2, _⟩ := stdRow_bd (F := F) (B := 2) (by norm_num)
    (by have := two_pow_mono (m := 1) (n := 400) (by norm_num); norm_num only at this ⊢; exact this) (l := row)
    (fun a ha => by
      obtain ⟨x, h1, h2⟩ := hcell a ha
      obtain ⟨k1, k2⟩ := abs_le.mp h2
      exact ⟨x, h1, by rw [abs_le]; constructor <;> norm_num at * <;> linarith⟩) (by omega) (by omega)
  have hdd : d' = d := by
    have h : val (stdRow row) = .fin d' := e1
    rw [show val (stdRow row) = .fin d from d1] at h
    cases h; rfl
  subst hdd
  refine ⟨d', d1, e2, ?_⟩
  have hnear := sampleStd_near (a := row.map number) (b := row.map fun _ => (1 : ℝ)) (ε := 7 / 10 ^ 5)
    (by
      rw [List.forall₂_map_left_iff, List.forall₂_map_right_iff, List.forall₂_same]
      intro a ha
      obtain ⟨x, h1, h2⟩ := hcell a ha
      rw [number_of h1]; exact h2) (by rw [List.length_map]; omega)
  rw [sampleStd_ones (l := row.map fun _ => (1 : ℝ)) (by simp), sub_zero] at hnear
  have k1 := (abs_le.mp d2).2
  have k2 := (abs_le.mp hnear).2
  norm_num at *; linarith

/-- The hypotheses of `C10_patch_std_rounded`: every patch of 2 to 1024 columns compared with itself; those of `C65_deviation_rounded` are met by
the example of `C65_rounded` and those of `C08_deviation_rounded` by the example of `C08_nsim_self_rounded`. -/
example (p : Profile) (m : Mat F) (wf : m.WF) (hn : 0 < m.nrows) (hc : 2 ≤ m.ncols) (hc2 : m.ncols ≤ 2 ^ 10) (hl : LevelsWithin 256 m) :
    ∃ sm r, simMap p m m = .ok sm ∧ measurePatchSimilarity p m m = .ok r ∧ LevelsWithin 2 sm ∧ sm.rows.length = m.nrows ∧
      ∀ row ∈ sm.rows, 2 ≤ row.length ∧ row.length ≤ 2 ^ 10 := by
  have hp : m.Pw 8 := fun r hr a ha => by
    obtain ⟨x, h1, h2⟩ := hl r hr a ha
    exact ⟨x, h1, by norm_num; exact h2⟩
  refine ⟨_, _, simMap_eq p m m wf wf ⟨rfl, rfl⟩ hn (by omega), measurePatchSimilarity_eq p m m wf wf ⟨rfl, rfl⟩ hn (by omega), ?_,
    Mat.ofFn_nrows _ _ _, fun row hr => by rw [(self_cells hp row hr).1]; exact ⟨hc, hc2⟩⟩
  intro row hr a ha
  obtain ⟨x, h1, h2⟩ := (self_cells hp row hr).2 a ha
  obtain ⟨k1, k2⟩ := abs_le.mp h2
  exact ⟨x, h1, by rw [abs_le]; constructor <;> norm_num at * <;> linarith⟩

end

end Visqol
