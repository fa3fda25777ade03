import Verif.Model.Mat

/-! # Signals, windows, level matching and WAV loading -/

namespace Visqol
variable {F : Type} [Flt F]

/-- `audio_signal.rs:4-9`. -/
structure AudioSignal (F : Type) where
  data : List F
  sampleRate : Nat
  deriving DecidableEq, Repr

/-- `audio_signal.rs:20` `get_duration`. -/
def AudioSignal.duration (s : AudioSignal F) : F := Flt.ofNat s.data.length / Flt.ofNat s.sampleRate

/-- `analysis_window.rs:2-7`. -/
structure AnalysisWindow (F : Type) where
  size : Nat
  overlap : F

/-- `analysis_window.rs:11-16` `AnalysisWindow::new`. -/
def AnalysisWindow.mk' (sampleRate : Nat) (overlap duration : F) : AnalysisWindow F :=
  ⟨Flt.toUsize (Flt.round (Flt.ofNat sampleRate * duration)), overlap⟩

/-- The hop (frame) size in samples: `gammatone_spectrogram_builder.rs:40`, `vad_patch_creator.rs:27`. -/
def AnalysisWindow.hop (w : AnalysisWindow F) : Nat := Flt.toUsize (Flt.ofNat w.size * w.overlap)

/-- `math_utils.rs:9-18` `next_pow_two` (the fourth shift is by 1, as in the source). -/
def nextPowTwo (p : Profile) (input : Nat) : M Nat := do
  let x ← usub p input 1
  let x := x ||| (x >>> 1)
  let x := x ||| (x >>> 2)
  let x := x ||| (x >>> 4)
  let x := x ||| (x >>> 1)
  let x := x ||| (x >>> 16)
  uadd p x 1

/-- `math_utils.rs:21` `exponential_from_fit`. -/
def exponentialFromFit (x a b x0 : F) : F := a + Flt.exp (b * (x - x0))

/-- `math_utils.rs:3-7, 32` `normalize_signal` with `get_max` (panics on empty input or NaN). -/
def normalizeSignal (l : List F) : M (List F) := do
  let m ← expect (extremum .gt l)
  .ok (l.map (· / m))

/-- `math_utils.rs:24-29` `normalize_int16_to_double`. -/
def normalizeInt16 (l : List Int) : List F := l.map (fun x => Flt.ofInt x / 32767.0)

/-- `audio_utils.rs:35-43` `calculate_sound_pressure_level` (`powi(2)` is modelled as `x * x`). -/
def soundPressureLevel (s : List F) : F :=
  let energy := Flt.iterSum (s.map (fun x => x * x))
  let pressure := Flt.sqrt (energy / Flt.ofNat s.length)
  20.0 * Flt.log10 (pressure / 0.00002)

/-- `audio_utils.rs:17-32` `scale_to_match_sound_pressure_level`. -/
def scaleToMatchSpl (ref deg : AudioSignal F) : AudioSignal F :=
  let factor : F := Flt.powf 10.0 ((soundPressureLevel ref.data - soundPressureLevel deg.data) / 20.0)
  ⟨deg.data.map (· * factor), deg.sampleRate⟩

/-- Rows of `chunk` consecutive elements (`Array2::from_shape_vec((n, c).strides((c, 1)))`, `audio_utils.rs:67-69`). -/
def chunksOf {α : Type} (c : Nat) : Nat → List α → List (List α)
  | 0, _ => []
  | n + 1, l => l.take c :: chunksOf c n (l.drop c)

/-- `audio_utils.rs:64-72` `extract_multichannel`: one row per frame.  `is_multiple_of(0)` holds only for an empty
vector, for which the following division by zero panics. -/
def extractMultichannel (channels : Nat) (v : List F) : M (List (List F)) :=
  if channels = 0 then
    (if v.length = 0 then .error (.panic .divZero) else .error (.panic .assert))
  else if v.length % channels = 0 then .ok (chunksOf channels (v.length / channels) v)
  else .error (.panic .assert)

/-- What the file system and `hound` (external) yield for a path (`wav_reader.rs:19-31`). -/
inductive WavContent where
  /-- the file cannot be opened or has no valid WAV header -/
  | unreadable
  /-- a readable header; `samples = none` when reading the data fails part way -/
  | wav (channels sampleRate bitsPerSample : Nat) (samples : Option (List Int))

/-- `wav_reader.rs:6-13`. -/
structure WavFile where
  numChannels : Nat
  sampleRate : Nat
  samples : List Int
  deriving DecidableEq, Repr

/-- `x as i16` for an integer (`wav_reader.rs:32`): two's complement truncation. -/
def wrapI16 (z : Int) : Int := Int.bmod z 65536

/-- `wav_reader.rs:18-39` `WavFile::open`. -/
def WavFile.open (c : WavContent) : M WavFile :=
  match c with
  | .unreadable => .error .external
  | .wav ch sr bits samples =>
    if bits ≠ 16 then .error (.err (.invalidBitsPerSample bits))
    else do
      let s ← expect samples
      .ok ⟨ch, sr, s.map wrapI16⟩

/-- `audio_utils.rs:46, 49-61` `load_as_mono` with `to_mono_matrix`. -/
def loadAsMono (c : WavContent) : M (AudioSignal F) := do
  let w ← WavFile.open c
  let frames ← extractMultichannel w.numChannels (normalizeInt16 (F := F) w.samples)
  .ok ⟨(frames.map Flt.sum).map (· / Flt.ofNat w.numChannels), w.sampleRate⟩

end Visqol
