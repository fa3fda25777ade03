import Verif.Model.Args

/-! # The texts of the errors and how the process ends (`visqol-rs/src/visqol_error.rs`, `visqol/src/main.rs`) -/

namespace Visqol

/-- `visqol_error.rs:6-35`: the texts of the `#[error]` attributes (`Display`). -/
def VisqolError.display : VisqolError → String
  | .differentSampleRates r d =>
    "Sample rates differ! Reference signal is sampled at " ++ toString r ++ " Hz, degraded signal is sampled at " ++ toString d ++ " Hz"
  | .tooFewSamples n k => "Signal is too short! Found " ++ toString n ++ " samples, minimum required is " ++ toString k
  | .referenceSpectrogramTooSmall n k => "reference spectrum size " ++ toString n ++ " smaller than minimum " ++ toString k
  | .signalsTooDifferent => "Degraded file was too short, different, or misaligned to score any of the reference patches."
  | .failedToAlignSignals => "Failed to align signals!"
  | .failedToComputeVad => "Failed to compute VAD!"
  | .invalidBitsPerSample b => "Visqol input files must be quantized to 16 bit. Found " ++ toString b ++ "!"

/-- `visqol_error.rs:4`: `derive(Debug)`. -/
def VisqolError.debug : VisqolError → String
  | .differentSampleRates r d => "DifferentSampleRates { reference: " ++ toString r ++ ", degraded: " ++ toString d ++ " }"
  | .tooFewSamples n k => "TooFewSamples { found: " ++ toString n ++ ", minimum_required: " ++ toString k ++ " }"
  | .referenceSpectrogramTooSmall n k =>
    "ReferenceSpectrogramTooSmall { spectrogram_length: " ++ toString n ++ ", minimum_required: " ++ toString k ++ " }"
  | .signalsTooDifferent => "SignalsTooDifferent"
  | .failedToAlignSignals => "FailedToAlignSignals"
  | .failedToComputeVad => "FailedToComputeVad"
  | .invalidBitsPerSample b => "InvalidBitsPerSample { bits_per_sample: " ++ toString b ++ " }"

/-- How the process ends (`main.rs:30`): its status, and what it writes to the standard error stream; `none` if that text comes from outside
(another crate's error, the panic handler, `clap`). -/
structure Exit where
  status : Nat
  message : Option String
  deriving DecidableEq, Repr

/-- `main.rs:30` `fn main() -> Result<(), Box<dyn Error>>`: the standard library prints `Error: ` and the error's `Debug` text and
ends with status 1 if `main` returns an error, and with 101 after a panic. -/
def mainExit : M Unit → Exit
  | .ok _ => ⟨0, some ""⟩
  | .error (.err e) => ⟨1, some ("Error: " ++ e.debug ++ "\n")⟩
  | .error .external => ⟨1, none⟩
  | .error (.panic _) => ⟨101, none⟩

/-- The whole process (`main.rs:30-72`): `clap` ends the process with status 2 if it refuses the command line. -/
def tool {F : Type} [Flt F] [RustFft F] (p : Profile) (world : World F) (csv : String → CsvContent) (writable : String → Bool)
    (raw : RawArgs) : List (Effect F) × Exit :=
  match parseArgs p raw with
  | .error .panic => ([], ⟨101, none⟩)
  | .error .usage => ([], ⟨2, none⟩)
  | .ok a => ((cliMain p world csv writable a).1, mainExit (cliMain p world csv writable a).2)

end Visqol
