import Verif.Model.Audio
import Verif.Model.Cpx

/-! # FFT wrappers, envelope, cross-correlation and alignment -/

namespace Visqol
variable {F : Type} [Flt F]

/-- `fft_manager.rs:11-20` (the planner is a cache without observable state). -/
structure FftManager where
  fftSize : Nat
  samplesPerChannel : Nat
  deriving DecidableEq, Repr

/-- `fft_manager.rs:24-33` `FftManager::new`; `MIN_FFT_SIZE = 32`. -/
def FftManager.new (p : Profile) (samplesPerChannel : Nat) : M FftManager := do
  let n ← nextPowTwo p samplesPerChannel
  .ok ⟨max n 32, samplesPerChannel⟩

variable [RustFft F]

/-- `fast_fourier_transform.rs:7-17` `forward_1d_from_matrix` with `fft_manager.rs:36-64` `freq_from_time_domain`
(zero-pads or truncates to the FFT size) and `audio_utils.rs:96-107`. -/
def forward1d (m : FftManager) (signal : List F) : List (Cpx F) :=
  RustFft.forward ((resize signal m.fftSize 0.0).map Cpx.ofRe)

/-- `fast_fourier_transform.rs:19-29` `forward_1d_from_points`. -/
def forward1dFromPoints (p : Profile) (m : FftManager) (signal : List F) (points : Nat) : M (List (Cpx F)) := do
  let k ← usub p points signal.length
  .ok (forward1d m (signal ++ List.replicate k 0.0))

/-- `fast_fourier_transform.rs:31-43` `inverse_1d` with `fft_manager.rs:67-104` and `audio_utils.rs:109-120`: inverse
transform, imaginary parts dropped, scaled, first `samples_per_channel` values.  `rustfft` panics if the buffer length is not
the planned length; indexing panics if more samples are wanted than the transform has. -/
def inverse1d (m : FftManager) (freq : List (Cpx F)) : M (List F) :=
  if freq.length ≠ m.fftSize then .error (.panic .shape)
  else
    let scale : F := 1.0 / Flt.ofNat m.fftSize
    let time := (RustFft.inverse freq).map fun c => c.re * scale
    if m.samplesPerChannel ≤ time.length then .ok (time.take m.samplesPerChannel)
    else .error (.panic .index)

/-- `envelope.rs:27-46`: the scaling vector of `calculate_hilbert` for a signal of length `len` and `n` bins. -/
def hilbertScaling (len n : Nat) : M (List F) := do
  let v := List.replicate n (0.0 : F)
  let v ← setIdx v 0 1.0
  let isOdd := len % 2 == 1
  let v ← if !isOdd && len != 0 then setIdx v (len / 2) 1.0
    else if isOdd && len != 0 then setIdx v (len / 2) 2.0
    else .ok v
  let hi := if isOdd then (n + 1) / 2 else n / 2
  if 1 ≤ hi ∧ hi ≤ v.length then
    .ok (v.mapIdx fun i x => if 1 ≤ i ∧ i < hi then 2.0 else x)
  else .error (.panic .slice)

/-- `envelope.rs:22-60` `calculate_hilbert`.  The result is complex in the source with imaginary part
`0.0 * 2.0 - 0`; the real parts and that constant imaginary part are returned. -/
def calculateHilbert (p : Profile) (signal : List F) : M (List (Cpx F)) := do
  let m ← FftManager.new p signal.length
  let freq := forward1d m signal
  let scaling ← hilbertScaling (F := F) signal.length freq.length
  let prod := List.zipWith Cpx.smul freq scaling
  let h ← inverse1d m prod
  .ok (h.map fun x => ((Cpx.ofRe x).smul 2.0).ssub 0.000001)

/-- `envelope.rs:7-19` `calculate_upper_env`; `none` exactly when the signal is empty. -/
def calculateUpperEnv (p : Profile) (signal : List F) : M (Option (List F)) :=
  match meanOpt signal with
  | none => .ok none
  | some mean => do
    let h ← calculateHilbert p (signal.map (· - mean))
    .ok (some ((h.map Cpx.norm).map (· + mean)))

/-- `xcorr.rs:79-88` `frexp`, the exponent only (the mantissa is unused). -/
def frexpExp (s : F) : Int :=
  if Flt.eq 0.0 s then 0 else Flt.toI32 (Flt.floor (Flt.log2 (Flt.abs s)) + 1.0)

/-- `xcorr.rs:47` `2usize.pow(e as u32)`: a negative `e` becomes a huge exponent; overflow panics or wraps to 0. -/
def pow2 (p : Profile) (e : Int) : M Nat :=
  if 0 ≤ e ∧ e < 64 then .ok (2 ^ e.toNat)
  else match p with
    | .checked => .error (.panic .overflow)
    | .wrapping => .ok 0

/-- `xcorr.rs:56-75` `calculate_fft_pointwise_product`. -/
def fftPointwiseProduct (p : Profile) (m : FftManager) (s1 s2 : List F) (points : Nat) : M (List (Cpx F)) := do
  let f2 ← forward1dFromPoints p m s2 points
  let f1 ← forward1dFromPoints p m s1 points
  .ok (List.zipWith Cpx.mul f1 (f2.map Cpx.conj))

/-- `xcorr.rs:31-53` `calculate_inverse_fft_pointwise_product` with `fast_fourier_transform.rs:46-50`. -/
def inverseFftPointwiseProduct (p : Profile) (s1 s2 : List F) : M (List F) := do
  let n := max s1.length s2.length
  let s1 := resize s1 n 0.0
  let s2 := resize s2 n 0.0
  let len ← usub p (s1.length * 2) 1
  let points ← pow2 p (frexpExp (Flt.ofNat len : F))
  let m ← FftManager.new p points
  let prod ← fftPointwiseProduct p m s1 s2 points
  inverse1d m prod

omit [RustFft F] in
/-- `xcorr.rs:19-23`: `Iterator::max_by` on absolute values (the last maximal element wins), panicking on NaN. -/
def maxByAbs : List F → M (Option F)
  | [] => .ok none
  | a :: l => do
    let m ← foldE (fun acc y => do
      let c ← expect (Flt.partialCmp (Flt.abs acc) (Flt.abs y))
      .ok (if c = .gt then acc else y)) a l
    .ok (some m)

/-- `xcorr.rs:6-28` `calculate_best_lag`. -/
def calculateBestLag (p : Profile) (s1 s2 : List F) : M (Option Int) := do
  let maxLag ← usub p (max s1.length s2.length) 1
  let v ← inverseFftPointwiseProduct p s1 s2
  let start ← usub p v.length maxLag
  let neg ← sliceM v start v.length
  let pos ← sliceM v 0 (maxLag + 1)
  let corrs := neg ++ pos
  match ← maxByAbs corrs with
  | none => .ok none
  | some best =>
    match corrs.findIdx? (fun r => Flt.eq r best) with
    | none => .ok none
    | some i => .ok (some ((i : Int) - (maxLag : Int)))

/-- `alignment.rs:47-88` `globally_align`. -/
def globallyAlign (p : Profile) (ref deg : AudioSignal F) : M (Option (AudioSignal F × F)) := do
  match ← calculateUpperEnv p ref.data with
  | none => .ok none
  | some renv =>
    match ← calculateUpperEnv p deg.data with
    | none => .ok none
    | some denv =>
      match ← calculateBestLag p renv denv with
      | none => .ok none
      | some lag =>
        if lag = 0 ∨ lag.natAbs > ref.data.length / 2 then .ok (some (⟨deg.data, deg.sampleRate⟩, 0.0))
        else do
          let d ← if lag < 0 then sliceM deg.data lag.natAbs deg.data.length
            else .ok (List.replicate lag.toNat 0.0 ++ deg.data)
          .ok (some (⟨d, deg.sampleRate⟩, Flt.ofInt lag / Flt.ofNat deg.sampleRate))

/-- `alignment.rs:9-43` `align_and_truncate`. -/
def alignAndTruncate (p : Profile) (ref deg : AudioSignal F) :
    M (Option (AudioSignal F × AudioSignal F × F)) := do
  match ← globallyAlign p ref deg with
  | none => .ok none
  | some (aligned, lag) =>
    if ref.data.length < aligned.data.length then do
      let r ← sliceM ref.data (Flt.toUsize (lag * Flt.ofNat ref.sampleRate)) ref.data.length
      let d ← sliceM aligned.data (Flt.toUsize (lag * Flt.ofNat deg.sampleRate)) ref.data.length
      .ok (some (⟨r, ref.sampleRate⟩, ⟨d, deg.sampleRate⟩, lag))
    else if aligned.data.length < ref.data.length then do
      let r ← sliceM ref.data 0 aligned.data.length
      .ok (some (⟨r, ref.sampleRate⟩, ⟨aligned.data, deg.sampleRate⟩, lag))
    else .ok (some (⟨ref.data, ref.sampleRate⟩, ⟨aligned.data, deg.sampleRate⟩, lag))

end Visqol
