import Verif.Model.Audio

/-! # Patch creators and voice activity detection -/

namespace Visqol
variable {F : Type} [Flt F]

/-- Which patch creator a manager uses, with its patch size
(`patch_creator.rs:9-24` trait objects of `vad_patch_creator.rs` and `image_patch_creator.rs`). -/
inductive PatchCreator where
  | vad (patchSize : Nat)
  | image (patchSize : Nat)
  deriving DecidableEq, Repr

/-- The patch size of a creator: `vad_patch_creator.rs:8`, `image_patch_creator.rs:9`. -/
def PatchCreator.patchSize : PatchCreator → Nat
  | .vad n => n
  | .image n => n

/-- `image_patch_creator.rs:69` `(init..max).step_by(step)` as a list. -/
def rangeStep (lo hi step : Nat) : List Nat :=
  (List.range ((hi - lo + (step - 1)) / step)).map (fun k => lo + k * step)

/-- `image_patch_creator.rs:47-73` `create_ref_patch_indices_from_spectrogram`.  The subtractions cannot underflow for
patch sizes of at least 2 (the crate uses 20). -/
def imagePatchIndices (patchSize numCols : Nat) : M (List Nat) :=
  let init := patchSize / 2
  if numCols < patchSize + init then
    .error (.err (.referenceSpectrogramTooSmall numCols (patchSize - init)))
  else
    let maxIndex := if init < numCols - patchSize then numCols - patchSize else init + 1
    .ok ((rangeStep init maxIndex patchSize).map (· - 1))

/-- `rms_vad.rs:56-62` `calc_root_mean_square` (the `i64` sum cannot overflow for chunks that fit in memory). -/
def rmsOf (chunk : List Int) : F :=
  Flt.sqrt (Flt.ofInt (chunk.map (fun x => x * x)).sum / Flt.ofNat chunk.length)

/-- `rms_vad.rs:31-39` `process_chunk`: the flag pushed for a chunk.  The flags `1.0`/`0.0` are modelled as Booleans;
they are only ever compared with these constants and summed. -/
def chunkActive (chunk : List Int) : Bool := !Flt.lt (rmsOf (F := F) chunk) 5000.0

/-- `rms_vad.rs:65-74` `check_previous_chunks_for_silence` (`silent_chunk_count = 3`). -/
def previousSilent (flags : List Bool) (i : Nat) : Bool :=
  !(flags.getD (i - 1) false) && !(flags.getD (i - 2) false)

/-- `rms_vad.rs:42-53` `get_vad_results`. -/
def vadResults (flags : List Bool) : List Bool :=
  List.replicate 2 true ++
    ((List.range (flags.length - 2)).map fun k =>
      let i := k + 2
      !(!(flags.getD i false) && previousSilent flags i))

/-- `vad_patch_creator.rs:104-108`: conversion of one normalised sample to a 16-bit integer; the `max`/`min` chain
clamps from above only, as in the source. -/
def toPcm (x : F) : Int :=
  let v : F := Flt.ofInt (Flt.toI16 (x * Flt.ofInt 32768))
  Flt.toI16 (Flt.min (Flt.max (Flt.ofInt (-32768)) (1.0 * Flt.ofInt 32767)) v)

/-- `vad_patch_creator.rs:102-114`: split into full frames of `frameLength` samples; a trailing partial frame is
discarded and with `frameLength = 0` no frame is ever completed. -/
def fullFrames {α : Type} (frameLength : Nat) (l : List α) : List (List α) :=
  if frameLength = 0 then [] else chunksOf frameLength (l.length / frameLength) l

/-- `vad_patch_creator.rs:91-116` `get_voice_activity`. -/
def voiceActivity (signal : List F) (start total frameLength : Nat) : M (List Bool) := do
  let patch ← sliceM signal start (start + total)
  .ok (vadResults ((fullFrames frameLength (patch.map toPcm)).map (chunkActive (F := F))))

/-- `vad_patch_creator.rs:50` `itertools::chunks(n)`: consecutive groups of `n`, the last possibly shorter (`n > 0`; the fuel is the length). -/
def chunksIter {α : Type} (n : Nat) : Nat → List α → List (List α)
  | 0, _ => []
  | _ + 1, [] => []
  | fuel + 1, a :: l => (a :: l).take n :: chunksIter n fuel ((a :: l).drop n)

/-- `vad_patch_creator.rs:48-57`: the patch loop; a patch is kept if at least one of its frames is active
(`sum >= 1.0` for a sum of flags). -/
def selectPatches (patchSize : Nat) : Nat → List (List Bool) → List Nat
  | _, [] => []
  | i, c :: cs =>
    if 1 ≤ c.countP (· == true) then i :: selectPatches patchSize (i + patchSize) cs
    else selectPatches patchSize (i + patchSize) cs

/-- `vad_patch_creator.rs:13-60` `VadPatchCreator::create_ref_patch_indices`. -/
def vadPatchIndices (p : Profile) (patchSize numCols : Nat) (ref : AudioSignal F) (w : AnalysisWindow F) :
    M (List Nat) := do
  let norm ← normalizeSignal ref.data
  let frameSize := w.hop
  let patchSampleLength := patchSize * frameSize
  let first ← usub p (patchSize / 2) 1
  let avail ← usub p numCols first
  if patchSize = 0 then .error (.panic .divZero) else do
  let patchCount := avail / patchSize
  -- after a wrapping underflow the source first tries to allocate about 5 exabytes; that abort is represented by
  -- the slice panic below
  let vad ← voiceActivity norm first (patchCount * patchSampleLength) frameSize
  .ok (selectPatches patchSize first (chunksIter patchSize vad.length vad))

/-- `patch_creator.rs:11-16` `create_ref_patch_indices` of either creator. -/
def PatchCreator.indices (p : Profile) (pc : PatchCreator) (numCols : Nat) (ref : AudioSignal F)
    (w : AnalysisWindow F) : M (List Nat) :=
  match pc with
  | .vad n => vadPatchIndices p n numCols ref w
  | .image n => imagePatchIndices n numCols

/-- `create_patches_from_indices` (`vad_patch_creator.rs:62-78`, `image_patch_creator.rs:22-39`, identical). -/
def createPatches (patchSize : Nat) (m : Mat F) (indices : List Nat) : M (List (Mat F)) :=
  mapE (fun i => m.sliceCols i (i + patchSize)) indices

end Visqol
