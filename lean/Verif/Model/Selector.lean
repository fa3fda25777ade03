import Verif.Model.Nsim
import Verif.Model.Fft
import Verif.Model.Spectrogram

/-! # Coarse patch matching and fine alignment (`comparison_patches_selector.rs`) -/

namespace Visqol
variable {F : Type} [Flt F]

/-- `comparison_patches_selector.rs:250-257`: the `while` loop of `calc_max_num_patches`, counting down from `n`.
At `n = 0` the index `num_patches - 1` underflows: a panic when checked, an out-of-bounds index when wrapping. -/
def calcMaxNumPatchesLoop (p : Profile) (indices : List Nat) (numDeg perPatch : Nat) : Nat → M Nat
  | 0 => match p with
    | .checked => .error (.panic .overflow)
    | .wrapping => .error (.panic .index)
  | n + 1 => do
    let i ← idx indices n
    let d ← usub p i (perPatch / 2)
    if d > numDeg then calcMaxNumPatchesLoop p indices numDeg perPatch n else .ok (n + 1)

/-- `comparison_patches_selector.rs:243-258` `calc_max_num_patches`. -/
def calcMaxNumPatches (p : Profile) (indices : List Nat) (numDeg perPatch : Nat) : M Nat :=
  if indices.length = 0 then .ok 0
  else calcMaxNumPatchesLoop p indices numDeg perPatch indices.length

/-- `comparison_patches_selector.rs:295-317` `build_degraded_patch(m, begin, begin + len)`, including the caller's
addition.  An overflowing addition panics when checked; when wrapping, the window end is before its start and the slice panics. -/
def buildDegradedPatch (m : Mat F) (start len : Nat) : M (Mat F) :=
  if start + len < usizeMod then do
    let last := min (start + len) m.ncols
    let patch ← m.sliceCols start last
    if start + len > m.ncols then .ok (patch.appendZeroCols (start + len - m.ncols)) else .ok patch
  else .error (.panic .overflow)

/-- `comparison_patches_selector.rs:207-219`: scan `back_offset` downwards from `b` to `lower` for the largest
entry of the previous row; state is (`highest_sim`, `past_slide_offset`). -/
def backScan (prev : List F) (lower b : Int) (best : F × Int) : M (F × Int) :=
  if lower ≤ b then do
    let v ← idx prev b.toNat
    backScan prev lower (b - 1) (if Flt.lt best.1 v then (v, b) else best)
  else .ok best
termination_by (b - lower + 1).toNat
decreasing_by omega

/-- `comparison_patches_selector.rs:237` `past_slide_offset as usize` -/
def i32ToUsize (z : Int) : Nat := if 0 ≤ z then z.toNat else (usizeMod - z.natAbs)

/-- `comparison_patches_selector.rs:189-235`: given the similarity of the current pair at `o`, the new table entry and
back pointer.  `prev` is the previous reference index and the previous row of the table (absent for the first patch). -/
def dpCell (p : Profile) (prev : Option (Nat × List F)) (searchWindow : Int) (o : Nat) (sim : F) : M (F × Nat) :=
  match prev with
  | none => .ok (sim, i32ToUsize (-1))
  | some (prevIdx, row) => do
    let lower ← i32 p (wrapI32 prevIdx - searchWindow)
    let lower := max lower 0
    let (highest, past) ← backScan row lower ((o : Int) - 1) (Flt.minVal, -1)
    let sim := sim + highest
    let same ← idx row o
    if Flt.lt sim same then .ok (same, o) else .ok (sim, i32ToUsize past)

/-- `comparison_patches_selector.rs:171-239`: the `while` loop over `slide_offset`, from `o` to `hi`. -/
def slideLoop {σ : Type} (hi : Int) (ncols : Nat) (body : σ → Nat → M σ) (o : Int) (s : σ) : M σ :=
  if o ≤ hi then
    if o < 0 then slideLoop hi ncols body 0 s
    else if o = (ncols : Int) then .ok s
    else do
      let s' ← body s o.toNat
      slideLoop hi ncols body (o + 1) s'
  else .ok s
termination_by (hi + 1 - o).toNat
decreasing_by all_goals omega

/-- `comparison_patches_selector.rs:156-240` `find_most_optimal_deg_patch`.  Only row `patch_index` of the two tables is
written and only row `patch_index - 1` is read, so the function takes the previous row and returns the new rows. -/
def findMostOptimalDegPatch (p : Profile) (ncols : Nat) (refPatch : Mat F) (degPatches : List (Mat F))
    (prev : Option (Nat × List F)) (refIdx : Nat) (searchWindow : Int) : M (List F × List Nat) := do
  let lo ← i32 p (wrapI32 refIdx - searchWindow)
  let hi ← i32 p (wrapI32 refIdx + searchWindow)
  slideLoop hi ncols (fun (st : List F × List Nat) o => do
      let d ← idx degPatches o
      let sim ← measurePatchSimilarity p refPatch d
      let (v, b) ← dpCell p prev searchWindow o sim.similarity
      let r ← setIdx st.1 o v
      let bt ← setIdx st.2 o b
      .ok (r, bt))
    lo (List.replicate ncols 0.0, List.replicate ncols 0)

/-- `comparison_patches_selector.rs:71-83`: all rows of the two tables, one per reference patch. -/
def dpRows (p : Profile) (ncols : Nat) (degPatches : List (Mat F)) (searchWindow : Int) :
    Option (Nat × List F) → List (Mat F × Nat) → M (List (List F × List Nat))
  | _, [] => .ok []
  | prev, (patch, i) :: rest => do
    let r ← findMostOptimalDegPatch p ncols patch degPatches prev i searchWindow
    let rs ← dpRows p ncols degPatches searchWindow (some (i, r.1)) rest
    .ok (r :: rs)

/-- `comparison_patches_selector.rs:98-110`: first offset in `offsets` with the largest entry of the last row. -/
def lastOffsetScan (row : List F) : List Nat → F × Nat → M (F × Nat)
  | [], best => .ok best
  | o :: os, best => do
    let v ← idx row o
    lastOffsetScan row os (if Flt.lt best.1 v then (v, o) else best)

/-- The offsets visited by the loop at `comparison_patches_selector.rs:98-103`: `lower..upper`, cut at `ncols`. -/
def lastOffsets (lower upper ncols : Nat) : List Nat :=
  (List.range (min upper ncols - lower)).map (· + lower)

/-- `comparison_patches_selector.rs:113-151`: one step of the back-tracking loop, producing the result for one patch
and the offset for the previous patch. -/
def backtraceStep (p : Profile) (deg : Mat F) (frameDuration patchDuration : F) (refPatch : Mat F) (refIdx : Nat)
    (bt : List Nat) (offset : Nat) : M (PatchSim F × Nat) := do
  let d ← buildDegradedPatch deg offset refPatch.ncols
  let r ← measurePatchSimilarity p refPatch d
  let back ← idx bt offset
  let r := if offset = back then
      { r with degStart := 0.0, degEnd := 0.0, similarity := 0.0,
               freqBandMeans := List.replicate r.freqBandMeans.length 0.0 }
    else
      let s := Flt.ofNat offset * frameDuration
      { r with degStart := s, degEnd := s + patchDuration }
  let rs := Flt.ofNat refIdx * frameDuration
  .ok ({ r with refStart := rs, refEnd := rs + patchDuration }, back)

/-- `comparison_patches_selector.rs:112-151`: the back-tracking loop over (patch, index, back-pointer row), given last
patch first; results are returned in patch order. -/
def backtrack (p : Profile) (deg : Mat F) (frameDuration patchDuration : F) :
    List (Mat F × Nat × List Nat) → Nat → M (List (PatchSim F))
  | [], _ => .ok []
  | (patch, i, bt) :: rest, offset => do
    let (r, back) ← backtraceStep p deg frameDuration patchDuration patch i bt offset
    let rs ← backtrack p deg frameDuration patchDuration rest back
    .ok (rs ++ [r])

/-- `comparison_patches_selector.rs:23-153` `find_most_optimal_deg_patches`. -/
def findMostOptimalDegPatches (p : Profile) (refPatches : List (Mat F)) (indices : List Nat) (deg : Mat F)
    (frameDuration : F) (radius : Int) : M (List (PatchSim F)) := do
  let first ← idx refPatches 0
  let perPatch := first.ncols
  let patchDuration := frameDuration * Flt.ofNat perPatch
  let searchWindow ← i32 p (radius * wrapI32 perPatch)
  let n ← calcMaxNumPatches p indices deg.ncols perPatch
  if n = 0 then .error (.err .signalsTooDifferent) else do
  let degPatches ← mapE (fun o => buildDegradedPatch deg o perPatch) (List.range deg.ncols)
  let rows ← dpRows p deg.ncols degPatches searchWindow none (refPatches.zip indices)
  let lastIdx ← idx indices (n - 1)
  let lower ← i32 p (wrapI32 lastIdx - searchWindow)
  let upper ← uadd p lastIdx (i32ToUsize searchWindow)
  let upper ← uadd p upper 1
  let lastRow ← idx rows (n - 1)
  let best ← lastOffsetScan lastRow.1 (lastOffsets (max 0 lower).toNat upper deg.ncols) (Flt.minVal, 0)
  backtrack p deg frameDuration patchDuration
    ((refPatches.zip (indices.zip (rows.map Prod.snd))).take n).reverse best.2

/-- `comparison_patches_selector.rs:261-293` `slice`. -/
def sliceSignal (s : AudioSignal F) (startTime endTime : F) : M (AudioSignal F) := do
  let fs : F := Flt.ofNat s.sampleRate
  let a := Flt.toUsize (startTime * fs)
  let b := min (Flt.toUsize (endTime * fs)) s.data.length
  let d ← sliceM s.data a b
  let extra := Flt.toUsize (endTime * fs - Flt.ofNat s.data.length)
  let d := if extra > 0 then d ++ List.replicate extra 0.0 else d
  let d := if Flt.lt startTime 0.0 then List.replicate (Flt.toUsize (-startTime * fs)) 0.0 ++ d else d
  .ok ⟨d, s.sampleRate⟩

variable [RustFft F]

/-- `comparison_patches_selector.rs:331-391`: one iteration of the fine alignment loop. -/
def finelyAlignPatch (p : Profile) (nb : Nat) (ref deg : AudioSignal F) (w : AnalysisWindow F)
    (fb : FilterBank F) (r : PatchSim F) : M (FilterBank F × PatchSim F) :=
  if Flt.eq r.degStart r.degEnd && Flt.eq r.degStart 0.0 then .ok (fb, r)
  else do
    let ra ← sliceSignal ref r.refStart r.refEnd
    let da ← sliceSignal deg r.degStart r.degEnd
    match ← alignAndTruncate p ra da with
    | none => .error (.err .failedToAlignSignals)
    | some (raa, daa, lag) => do
      let (fb, rs) ← buildSpectrogram nb fb raa w
      let (fb, ds) ← buildSpectrogram nb fb daa w
      let (rm, dm) ← prepareSpectrograms rs.data ds.data
      let n ← measurePatchSimilarity p rm dm
      if Flt.lt n.similarity r.similarity then .ok (fb, r)
      else
        let (rStart, dStart) := if Flt.lt 0.0 lag then (r.refStart + lag, r.degStart)
          else (r.refStart, r.degStart - lag)
        .ok (fb, { n with refStart := rStart, degStart := dStart,
                          refEnd := rStart + raa.duration, degEnd := dStart + daa.duration })

/-- `comparison_patches_selector.rs:320-393` `finely_align_and_recreate_patches`. -/
def finelyAlign (p : Profile) (nb : Nat) (ref deg : AudioSignal F) (w : AnalysisWindow F) :
    FilterBank F → List (PatchSim F) → M (FilterBank F × List (PatchSim F))
  | fb, [] => .ok (fb, [])
  | fb, r :: rs => do
    let (fb, r') ← finelyAlignPatch p nb ref deg w fb r
    let (fb, rs') ← finelyAlign p nb ref deg w fb rs
    .ok (fb, r' :: rs')

end Visqol
