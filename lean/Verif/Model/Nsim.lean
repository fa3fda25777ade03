import Verif.Model.Mat

/-! # 2-D convolution and the NSIM patch comparison -/

namespace Visqol
variable {F : Type} [Flt F]

/-- `convolution_2d.rs:70-89` `copy_matrix_within_padding(m, 1, 1, 1, 1)`. -/
def padZero (m : Mat F) : Mat F :=
  let z : List F := List.replicate (m.ncols + 2) 0.0
  ⟨m.ncols + 2, z :: (m.rows.map fun r => 0.0 :: (r ++ [0.0])) ++ [z]⟩

/-- `convolution_2d.rs:55-59`: the first row becomes a copy of the second, the last a copy of the last but one. -/
def replicateRows (rows : List (List F)) : List (List F) :=
  let rows := rows.set 0 (rows.getD 1 [])
  rows.set (rows.length - 1) (rows.getD (rows.length - 2) [])

/-- `convolution_2d.rs:61-65` for one row: the first entry becomes a copy of the second, the last of the last but one. -/
def replicateCols (r : List F) : List F :=
  let r := r.set 0 (r.getD 1 0.0)
  r.set (r.length - 1) (r.getD (r.length - 2) 0.0)

/-- `convolution_2d.rs:52-67` `add_matrix_boundary` (the padded matrix has at least two rows and columns, so no
index is out of bounds). -/
def addMatrixBoundary (m : Mat F) : Mat F :=
  let z := padZero m
  ⟨z.ncols, (replicateRows z.rows).map replicateCols⟩

/-- `convolution_2d.rs:41-49` `flatten_matrix`. -/
def flattenMatrix (m : Mat F) : Array F := m.rows.flatten.toArray

/-- `convolution_2d.rs:25-34`: one output cell.  The filter index starts at the last entry and decreases
(saturating) while the window is traversed column by column. -/
def convCell (flat filt : Array F) (icc frc fcc oRow oCol : Nat) : M F := do
  let r ← foldE (fun (st : F × Nat) (fcr : Nat × Nat) => do
      let x ← aidx flat ((fcr.2 + oRow) * icc + fcr.1 + oCol)
      let w ← aidx filt st.2
      .ok (st.1 + x * w, st.2 - 1))
    ((0.0 : F), frc * fcc - 1)
    ((List.range fcc).flatMap fun c => (List.range frc).map fun r => (c, r))
  .ok r.1

/-- `a - b + 1` on `usize` where `a` is the size of an existing array: without underflow the sum is at most `a` (or 1) and
does not overflow; with underflow and wrapping arithmetic both operations wrap (`convolution_2d.rs:16-17`). -/
def outSize (p : Profile) (a b : Nat) : M Nat :=
  if b ≤ a then .ok (a - b + 1)
  else match p with
    | .checked => .error (.panic .overflow)
    | .wrapping => .ok ((a + usizeMod - b + 1) % usizeMod)

/-- `convolution_2d.rs:4-39` `perform_valid_2d_conv_with_boundary`. -/
def conv2d (p : Profile) (filt m : Mat F) : M (Mat F) := do
  let padded := addMatrixBoundary m
  let flat := flattenMatrix padded
  let orc ← outSize p padded.nrows filt.nrows
  let occ ← outSize p padded.ncols filt.ncols
  let ff := flattenMatrix filt
  let rows ← mapE (fun i => mapE (fun j => convCell flat ff padded.ncols filt.nrows filt.ncols i j) (List.range occ))
    (List.range orc)
  .ok ⟨occ, rows⟩

/-- `neurogram_similiarity_index_measure.rs:34-38`: the window. -/
def nsimWindow : Mat F :=
  ⟨3, [[0.0113033910173052, 0.0838251475442633, 0.0113033910173052],
       [0.0838251475442633, 0.619485845753726, 0.0838251475442633],
       [0.0113033910173052, 0.0838251475442633, 0.0113033910173052]]⟩

/-- `patch_similarity_comparator.rs:6-23` `PatchSimilarityResult`. -/
structure PatchSim (F : Type) where
  freqBandMeans : List F
  freqBandStddevs : List F
  freqBandDegEnergy : List F
  similarity : F
  refStart : F
  refEnd : F
  degStart : F
  degEnd : F
  deriving DecidableEq, Repr

/-- `patch_similarity_comparator.rs:27-43` `new`. -/
def PatchSim.new (means stds energy : List F) (sim : F) : PatchSim F :=
  ⟨means, stds, energy, sim, 0.0, 0.0, 0.0, 0.0⟩

/-- `neurogram_similiarity_index_measure.rs:41`: `c1 = (0.01 * intensity_range)^2`, with `intensity_range = 1.0`. -/
def nsimC1 : F := Flt.powf (0.01 * 1.0) 2.0
/-- `neurogram_similiarity_index_measure.rs:42`: `c3 = (0.03 * intensity_range)^2 / 2`. -/
def nsimC3 : F := Flt.powf (0.03 * 1.0) 2.0 / 2.0

/-- `neurogram_similiarity_index_measure.rs:45-89`: the similarity map. -/
def simMap (p : Profile) (ref deg : Mat F) : M (Mat F) := do
  let muRef ← conv2d p nsimWindow ref
  let muDeg ← conv2d p nsimWindow deg
  let refMuSq ← Mat.zip (· * ·) muRef muRef
  let degMuSq ← Mat.zip (· * ·) muDeg muDeg
  let muRD ← Mat.zip (· * ·) muRef muDeg
  let refSq ← Mat.zip (· * ·) ref ref
  let degSq ← Mat.zip (· * ·) deg deg
  let convRefSq ← conv2d p nsimWindow refSq
  let sigmaRefSq ← Mat.zip (· - ·) convRefSq refMuSq
  let convDegSq ← conv2d p nsimWindow degSq
  let sigmaDegSq ← Mat.zip (· - ·) convDegSq degMuSq
  let refDeg ← Mat.zip (· * ·) ref deg
  let convRefDeg ← conv2d p nsimWindow refDeg
  let sigmaRD ← Mat.zip (· - ·) convRefDeg muRD
  let intNum := muRD.map fun x => x * 2.0 + nsimC1
  let intDen ← Mat.zip (fun a b => a + b + nsimC1) refMuSq degMuSq
  let intensity ← Mat.zip (· / ·) intNum intDen
  let strNum := sigmaRD.map fun x => x + nsimC3
  let strDen ← Mat.zip (· * ·) sigmaRefSq sigmaDegSq
  let strDen := strDen.map fun e => if Flt.lt e 0.0 then nsimC3 else Flt.sqrt e + nsimC3
  let structure_ ← Mat.zip (· / ·) strNum strDen
  Mat.zip (· * ·) intensity structure_

/-- `neurogram_similiarity_index_measure.rs:29-108` `measure_patch_similarity`. -/
def measurePatchSimilarity (p : Profile) (ref deg : Mat F) : M (PatchSim F) := do
  let sm ← simMap p ref deg
  let energy ← expect deg.meanRows
  let means ← expect sm.meanRows
  let stds := sm.rows.map stdRow
  let sim ← expect (meanOpt means)
  .ok (PatchSim.new means stds energy sim)

end Visqol
