import Verif.Model.Selector
import Verif.Model.Patch

/-! # Quality mapping, similarity calculation and the manager -/

namespace Visqol
variable {F : Type} [Flt F]

/-- A loaded SVR (`support_vector_regression_model.rs:6-8`; `ffsvm`, external): the number of features and the prediction.
`predict` is `none` if `predict_value` fails; the label is `none` if it is not a value label. -/
structure SvrModel (F : Type) where
  numFeatures : Nat
  predict : List F → Option (Option F)

/-- `similarity_to_quality_mapper.rs` trait objects. -/
inductive QualityMapper (F : Type) where
  | speech (scaleMaxToMos : Bool)
  | svr (model : SvrModel F)

/-- `speech_similarity_to_quality_mapper.rs:20-41` `predict_quality`. -/
def speechQuality (scaleMaxToMos : Bool) (v : List F) : F :=
  let mean := Flt.iterSum v / Flt.ofNat v.length
  let mos := exponentialFromFit mean 1.1559455 4.6851153 0.7655232
  let scale : F := if scaleMaxToMos then 1.2031409 else 1.0
  Flt.clamp (mos * scale) 1.0 5.0

/-- `support_vector_regression_model.rs:21-37` `predict`. -/
def svrPredict (m : SvrModel F) (v : List F) : M F :=
  if m.numFeatures < v.length then .error (.panic .index)
  else do
    let r ← expect (m.predict (resize (v.map Flt.toF32) m.numFeatures 0.0))
    .ok (r.getD 0.0)

/-- `predict_quality` of either mapper (`svr_similarity_to_quality_mapper.rs:19-22`). -/
def QualityMapper.predict (q : QualityMapper F) (v : List F) : M F :=
  match q with
  | .speech s => .ok (speechQuality s v)
  | .svr m => do
    let r ← svrPredict m v
    .ok (Flt.clamp r 1.0 5.0)

/-- `similarity_result.rs:7-22`. -/
structure SimilarityResult (F : Type) where
  moslqo : F
  vnsim : F
  fvnsim : List F
  fstdnsim : List F
  fvdegenergy : List F
  centerFreqBands : List F
  patchSims : List (PatchSim F)
  deriving DecidableEq, Repr

/-- The inner loops of `visqol.rs:97-101, 110-114`: add `v[index]` to every element of `acc`. -/
def addBands (acc v : List F) : M (List F) :=
  mapE (fun (x : F × Nat) => do
    let y ← idx v x.2
    .ok (x.1 + y)) acc.zipIdx

/-- `visqol.rs:95-103` and `visqol.rs:106-116`: mean over patches of the band vector selected by `sel`.  The accumulator has
the length of the first patch's `freq_band_means`. -/
def perPatchMean (sel : PatchSim F → List F) (ps : List (PatchSim F)) : M (List F) := do
  let first ← idx ps 0
  let tot ← foldE (fun acc q => addBands acc (sel q)) (List.replicate first.freqBandMeans.length 0.0) ps
  .ok (tot.map (· / Flt.ofNat ps.length))

/-- `visqol.rs:131-142`: contribution of one patch; state is (contribution, total frame count). -/
def stdContribution (p : Profile) (frameDuration : F) (st : List F × Nat) (q : PatchSim F) : M (List F × Nat) := do
  let frameCount := Flt.toUsize (Flt.ceil ((q.refEnd - q.refStart) / frameDuration))
  let contrib ← mapE (fun (x : F × Nat) => do
    let dev ← idx q.freqBandStddevs x.2
    let mean ← idx q.freqBandMeans x.2
    let fm ← usub p frameCount 1
    .ok (x.1 + Flt.ofNat fm * dev * dev + Flt.ofNat frameCount * mean * mean)) st.1.zipIdx
  .ok (contrib, st.2 + frameCount)

/-- `visqol.rs:119-152` `calc_per_patch_mean_freq_band_std_devs`. -/
def perPatchStdDevs (p : Profile) (ps : List (PatchSim F)) (frameDuration : F) : M (List F) := do
  let fvn ← perPatchMean PatchSim.freqBandMeans ps
  let first ← idx ps 0
  let (contrib, total) ← foldE (stdContribution p frameDuration)
    (List.replicate first.freqBandMeans.length 0.0, 0) ps
  let t : F := Flt.ofNat total
  .ok ((List.zipWith (fun c f => (c - f * f * t) / (t - 1.0)) contrib fvn).map fun e =>
    if Flt.lt e 0.0 then 0.0 else Flt.sqrt e)

/-- `visqol.rs:155-161` `alter_for_similarity_extremes`. -/
def alterForSimilarityExtremes (vnsim moslqo : F) : F := if Flt.lt vnsim 0.15 then 1.0 else moslqo

variable [RustFft F]

/-- `visqol.rs:15-87` `calculate_similarity`. -/
def calculateSimilarity (p : Profile) (nb : Nat) (fb : FilterBank F) (ref deg : AudioSignal F)
    (w : AnalysisWindow F) (pc : PatchCreator) (mapper : QualityMapper F) (searchWindow : Nat) :
    M (FilterBank F × SimilarityResult F) := do
  let degScaled := scaleToMatchSpl ref deg
  let (fb, refSpec) ← buildSpectrogram nb fb ref w
  let (fb, degSpec) ← buildSpectrogram nb fb degScaled w
  let (refM, degM) ← prepareSpectrograms refSpec.data degSpec.data
  let indices ← pc.indices p refM.ncols ref w
  let frameDuration := Flt.ofNat w.size * w.overlap / Flt.ofNat ref.sampleRate
  let patches ← createPatches pc.patchSize refM indices
  let coarse ← findMostOptimalDegPatches p patches indices degM frameDuration (wrapI32 searchWindow)
  let (fb, fine) ← finelyAlign p nb ref degScaled w fb coarse
  let fvnsim ← perPatchMean PatchSim.freqBandMeans fine
  let fstdnsim ← perPatchStdDevs p fine frameDuration
  let fvdegenergy ← perPatchMean PatchSim.freqBandDegEnergy fine
  let mos ← mapper.predict fvnsim
  let vnsim ← expect (meanOpt fvnsim)
  .ok (fb, ⟨alterForSimilarityExtremes vnsim mos, vnsim, fvnsim, fstdnsim, fvdegenergy,
    refSpec.centerFreqBands, fine⟩)

/-- `variant.rs`. -/
inductive Variant where
  | fullband (modelPath : String)
  | wideband (useUnscaledMosMapping : Bool)
  deriving DecidableEq, Repr

/-- `visqol_manager.rs:26-32` (`NUM_BANDS` is a field here). -/
structure Manager (F : Type) where
  numBands : Nat
  searchWindow : Nat
  patchCreator : PatchCreator
  mapper : QualityMapper F
  filterBank : FilterBank F

/-- The outside world: files by path (`hound`, the file system) and SVR models by path (`ffsvm`, `support_vector_regression_model.rs:12-19`; `none` if it cannot
be read or parsed). -/
structure World (F : Type) where
  wav : String → WavContent
  svr : String → Option (SvrModel F)

omit [RustFft F] in
/-- `visqol_manager.rs:36-68` `VisqolManager::new` (with `constants.rs`: `PATCH_SIZE_AUDIO = 30` for wideband and
`PATCH_SIZE_SPEECH = 20` for fullband, `MINIMUM_FREQ = 50`). -/
def Manager.new (world : World F) (numBands : Nat) (v : Variant) (windowSize : Nat) : M (Manager F) :=
  match v with
  | .wideband unscaled => .ok ⟨numBands, windowSize, .vad 30, .speech (!unscaled), FilterBank.new numBands 50.0⟩
  | .fullband path => do
    let m ← expect (world.svr path)
    .ok ⟨numBands, windowSize, .image 20, .svr m, FilterBank.new numBands 50.0⟩

omit [Flt F] [RustFft F] in
/-- `visqol_manager.rs:111-128` `validate_input_audio` (a duration mismatch is only logged). -/
def validateInputAudio (ref deg : AudioSignal F) : M Unit :=
  if ref.sampleRate ≠ deg.sampleRate then
    .error (.err (.differentSampleRates ref.sampleRate deg.sampleRate))
  else .ok ()

/-- `visqol_manager.rs:84-108` `compute_results` (`OVERLAP = 0.25`, `WINDOW_DURATION = 0.08`). -/
def Manager.computeResults (p : Profile) (m : Manager F) (ref deg : AudioSignal F) :
    M (Manager F × SimilarityResult F) := do
  match ← globallyAlign p ref deg with
  | none => .error (.err .failedToAlignSignals)
  | some (aligned, _) => do
    let w : AnalysisWindow F := AnalysisWindow.mk' ref.sampleRate 0.25 0.08
    let (fb, r) ← calculateSimilarity p m.numBands m.filterBank ref aligned w m.patchCreator m.mapper m.searchWindow
    .ok ({ m with filterBank := fb }, r)

/-- `visqol_manager.rs:71-82` `run`. -/
def Manager.run (p : Profile) (world : World F) (m : Manager F) (refPath degPath : String) :
    M (Manager F × SimilarityResult F) := do
  let ref ← loadAsMono (F := F) (world.wav refPath)
  let deg ← loadAsMono (F := F) (world.wav degPath)
  validateInputAudio ref deg
  m.computeResults p ref deg

end Visqol
