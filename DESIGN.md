# Formal model of visqol-rs: design

Subject: `dstrub18/visqol-rs` as found in `/repo` (library `visqol-rs/src`, CLI `visqol/src`).
Tool: Lean 4.33.0 with Mathlib. Build: `lake build` in `/verif/lean`.

## 1. Shape of the model

The Rust code is translated function by function into pure Lean functions (`lean/Verif/Model/*.lean`).
Every definition cites the file and lines it models and states its simplifications.
Definitions without such a citation are the operations of the standard library and of external crates that the cited code calls
(`Num.lean`, `Cpx.lean`, `Mat.lean`, the checks made by `clap` in `Args.lean`, the layout of `serde_json` in `Output.lean`).

* **Numbers.** All code is written once, generic over a type `F` with a class `Flt F` (`+ - * /`, comparisons as
  Booleans, `sqrt`, `exp`, casts, ...). The class assumes **no law whatsoever** about these operations. Theorems come in three strengths:
  1. *any arithmetic*: for every `F` and every `Flt F`. These hold of IEEE `f64` as executed, whatever its rounding.
  2. *IEEE*: for every `F` with the laws of `Ieee F` (`Verif/Num/Ieee.lean`). Every number has a value: NaN, an infinity or a
     real number; both zeros have the value 0. The basic operations round the exact result; the rounding is any function with a few
     laws (exact on 53-bit numbers, error of one unit in the last place, monotone, never crosses a floating point number), so every
     rounding mode is covered. `log10` and `powf` are only assumed to be roughly right. Sums are assumed correct only where the order of summation
     does not matter (NaN, small integers, no overflow of small numbers), because `ndarray` sums in an unrolled order.
     `Verif/Num/Binary64.lean` constructs binary64 with round-to-nearest and proves the laws for it, so they are consistent.
     Theorems that need more (C03, C04, C06-C08, C10-C13, C18, C22, C23, C30, C31, C40, C45, C47, C56, C65, C67, C68, C70, C73-C75, C77, C81, C86-C88, C92, C93, C96-C99, or parts of them, in floating point) also assume `Libm F` (`Verif/Num/Libm.lean`): sums of non-negative numbers are not negative and sums in any order stay within
     the usual bound, rounding is tight (relative error `2^-52` plus `2^-1074`), differences of at most `2^-1021` are exact (gradual underflow), and `exp`, `ln`, `log2`, `log10`, `sin`, `cos`, `powf`, `hypot`, `floor`, `ceil` and the casts are accurate to a generous
     tolerance (about 40 of 53 digits, where it matters), `exp` of a number is not NaN and large for arguments from 500 on, `sin` and `atan2` of an exact zero are zero; and
     (C47, C74, C77, C88, C92, C93, C96) `BoundedFft F`: a transform of `n` bounded numbers is bounded. `Verif/Num/Binary64Libm.lean` proves both for the same binary64.
     The theorems on the delay (C11, C40, C56, C70, C75, C96 in floating point) also assume `AccurateFft F` (`Verif/Num/Accurate.lean`): the relative
     error of a transform in the Euclidean norm is at most `2^-40`, for up to `2^40` points; and C11 and C96 assume `UnitLaws F`
     (`Verif/Num/Unit.lean`): `a * 1.0` is `a`, and `powf(a, 0.0)` is 1. C83 and C96 assume `BitLaws F` (`Verif/Num/Bits.lean`):
     symmetric rounding, exact doubling, one bit pattern per non-zero number, sums of one or two numbers, equal squares of opposite numbers. All are proved for the same binary64, with the
     correctly rounded DFT as its transform.
  3. *exact*: for `F = Real`. Equalities between computed numbers (symmetry, optimality, correlation) are stated here.
     A real machine satisfies them up to rounding, which is quantified only where a `_rounded` theorem says so. In `Real` a quotient by zero is 0, `sqrt` of a negative number is 0
     and there is no NaN; claims of success over `Real` (C11, C63) say nothing about inputs on which the machine produces NaN.
* **Failures.** Functions return `Except Fail a`; `Fail` is either a `VisqolError` value (Rust `Err`) or a `panic` with its kind.
  Slice bounds, index bounds, `expect`, division by zero and `usize` underflow are modelled at each site where they can occur.
  `usize` subtraction takes a `Profile` (checked = debug build, wrapping = release build); theorems quantify over both.
* **Mutation.** `&mut` receivers become state passed in and returned (`FilterBank` is the only state that survives a call).
* **External code as parameters.** File system and WAV decoding (`hound`), the SVR (`ffsvm`), FFT (`rustfft`), CSV/JSON encoding.
  The FFT is a class `RustFft F` (two functions on lists with a length law) for strengths 1 and 2, and the DFT for strength 3.
  The theorems on silent signals and on opposite channels (C46, C47, `C83_opposite_rounded`) also assume `NanFft F`: a NaN in the real part of the first input of a transform makes the
  real part of every output NaN.
* **The command line tool** is a function from arguments to a *trace*: the list of observable actions in order
  (version line, JSON file written, CSV file written, lines printed) and how the program ends. A panic or an error ends the trace.

## 2. Trusted base

* Lean's kernel, and the axioms `propext`, `Classical.choice`, `Quot.sound` only. By `#print axioms`: no axiom for
  `C17_only_then`, `C44_chunks`, `C44_length`; only `propext` for `C13_shape`, `C17_only_16_bit`, `C25_too_small`, `C48_nothing`, `C48_pair`;
  `propext` and `Quot.sound` for 51 theorems (C14-C16, C20, C36, C37, C39, C41, C49-C51, C59, C90, and parts of C07, C09, C17, C28, C35, C42, C44, C48, C68, C75, C77, C82, C87, C91, C92);
  all three for the others. No theorem depends on any other axiom.
* The translation from Rust to Lean, made by hand. The cited line ranges make it reviewable; an executable `Float` instance
  (`Verif/Num/Float.lean`) is used outside the proofs to compare the model with numbers from the repository (next section).
* For C95 only: the standard library prints `Error: ` and the `Debug` text if `main` returns an error and ends with status 1, and with 101 after a
  panic; `clap` ends with status 2 if it refuses a command line; `derive(Debug)` and `thiserror` format as documented.
* `clap` 4.5, for C79 and C95 only: identifiers of arguments are the field names as written; a debug build panics if a declaration mentions an
  identifier that does not exist; a release build ignores such a requirement; repeated and undeclared options are refused.
* Semantics assumed for libraries: `ndarray` slicing/windows/concatenation/mean/std (Welford), `ndarray-stats` min/max
  (error on NaN or empty), `num-complex` formulas, `rustfft` (unnormalised DFT in the exact theorems; see `NanFft` above),
  `hound` (header fields and samples), `csv` (the first record is skipped as a header; on reading and on writing a record whose number of
  fields differs from the first one is an error; nested vectors and structs are written field by field; records written before an error are
  flushed when the writer is dropped, and what is written of the failing record is left open).
* Instances used only in theorems of that strength: `Flt Real` and the DFT (`Verif/Num/Real.lean`, `Dft.lean`), `Flt B64` (`Binary64.lean`).
  The compiled `Float` instance (`Verif/Num/Float.lean`) occurs in no theorem.

### What is modelled and what is not

| source (`visqol-rs/src` unless noted) | model |
|---|---|
| `visqol_manager.rs`, `visqol.rs`, `variant.rs`, `constants.rs`, `similarity_result.rs` | `Model/Manager.lean`, complete except logging |
| `similarity_to_quality_mapper.rs`, `speech_...mapper.rs`, `svr_...mapper.rs` | `Model/Manager.lean`, complete |
| `support_vector_regression_model.rs` | feature vector, clamping, failures; the prediction itself is a parameter, except in C84 |
| `model/libsvm_nu_svr_model.txt` | `Model/DefaultSvr.lean` (the numbers, exactly as in the file), `Model/Svr.lean` (the formula; `ffsvm` computes it in single precision, which is not modelled) |
| `audio_signal.rs`, `audio_utils.rs`, `analysis_window.rs`, `wav_reader.rs`, `math_utils.rs` | `Model/Audio.lean`, `Model/Spectrogram.lean`; WAV bytes are a parameter |
| `fast_fourier_transform.rs`, `fft_manager.rs`, `envelope.rs`, `xcorr.rs`, `alignment.rs` | `Model/Fft.lean`, complete around the two `rustfft` calls |
| `equivalent_rectangular_bandwidth.rs`, `signal_filter.rs`, `gammatone_filterbank.rs` | `Model/Filter.lean`, complete |
| `gammatone_spectrogram_builder.rs`, `spectrogram_builder.rs`, `spectrogram.rs` | `Model/Spectrogram.lean`, complete |
| `patch_creator.rs`, `image_patch_creator.rs`, `vad_patch_creator.rs`, `rms_vad.rs` | `Model/Patch.lean`, complete |
| `convolution_2d.rs`, `neurogram_similiarity_index_measure.rs`, `patch_similarity_comparator.rs` | `Model/Nsim.lean`, complete |
| `comparison_patches_selector.rs` | `Model/Selector.lean`, complete |
| `visqol_error.rs` | the constructors in `Model/Num.lean`, the texts in `Model/Exit.lean`, complete |
| `visqol/src/main.rs`, `command_line_utils.rs`, `output_utils.rs`, `path_pair.rs` | `Model/Cli.lean`, after argument parsing and before text formatting; `Model/Output.lean`, the texts of the two files; `Model/Args.lean`, the declared arguments; `Model/Exit.lean`, how the process ends |

* Not modelled: how `clap` splits the command line into options, `--help` and `--version`, logging, byte-level WAV and input CSV formats, the digits of numbers in the output files (`ryu`; assumed: not empty, only the characters of numbers, `NaN` and `inf`, valid JSON if finite) and the console text, training of the SVR model and other model files, the texts of panics and of other crates' errors,
  memory exhaustion, `usize` overflow of additions/multiplications other than at the sites named in the model
  (these are sums of lengths and indices of lists in memory, except the sum of the frame counts in `visqol.rs:135`, which comes from
  floating-point times; `C87_frame_count_fits` shows that it does not overflow).

### Conformance runs

The model was compiled with the `Float` instance (and a radix-2/Bluestein FFT, a WAV parser and an RBF-SVR evaluator written for
this purpose; none of them is part of the proofs) and run on WAV files of `/repo/visqol-rs/test_data`, radius 60:

| pair | mode | model | expected by the repository's tests |
|------|------|-------|------------------------------------|
| CA01_01 with itself | wideband, unscaled | 4.155761 | 4.1557613014690995 |
| CA01_01 with itself | wideband, scaled | 4.999966 | 5.0 within 0.001 |
| CA01_01, transcoded | fullband, patch size 20 (as coded) | 2.048683 | 2.00039 |
| CA01_01, transcoded | fullband, patch size 30 | 2.000395 | 2.00039 |
| guitar48, 64 kbps AAC | fullband, patch size 30 | 4.512324 | 4.512324438095877 |
| the similarities of `svn_predicts_known_mos` | `defaultSvr` alone | 4.305335 | 4.30533 within 0.00001 |

The rows three to five show that the manager at the pinned commit builds the fullband patch creator with `PATCH_SIZE_SPEECH` (20) and
the wideband one with `PATCH_SIZE_AUDIO` (30): the two constants are exchanged. With 30 the model reproduces the expected
values to all printed digits. The model follows the code as it is (20 and 30 exchanged); see C57.

## 3. Layout

* `Verif/Model/` the code. `Verif/Num/` numbers: `Real`, the laws of IEEE arithmetic, binary64, the DFT. `Verif/Spec/` small independent specifications.
* `Verif/Lemmas/` helper lemmas. `Verif/Props/` the property theorems, named `Cnn_...` after the property, each followed by an `example`
  meeting its hypotheses. Examples that need a whole run which returns `Ok` are collected in `Verif/Props/Witness.lean`, `Witness2.lean` and `Witness3.lean`.
* `MANIFEST.json` maps properties to theorems; `seeded/LOG.jsonl` records the wrong programs tried against the theorems.

## 4. Plan per property

| id | modelled | strength | method |
|----|----------|----------|--------|
| C01 | mappers, extremes rule | IEEE + exact | case analysis of clamp through the whole of `compute_results` |
| C02 | extremes rule | any | unfolding of a successful run |
| C03 | exponential fit, scale, clamp | exact; IEEE+Libm (`_rounded`) | monotonicity of exp, of clamp; error of the two means and of the fit |
| C04 | same | exact; IEEE+Libm (`_rounded`) | rational enclosure of exp |
| C05 | whole pipeline | any | shape invariants along the pipeline |
| C06 | aggregation | exact (sum order is irrelevant); IEEE+Libm (`_rounded`) | fold lemmas; error of sums in any order |
| C07 | NSIM, convolution | exact; `C07_rounded` IEEE + `Libm` | weighted Cauchy-Schwarz; in floating point within 0.00001 where no window is nearly flat |
| C08 | NSIM | exact; IEEE+Libm (`_rounded`) | algebra per cell; rounding error of the nine-term window sum, Jensen, square root of a computed square |
| C09 | NSIM | any commutative | commutativity per cell |
| C10 | std computations | IEEE + exact; `C10_patch_std_rounded` IEEE + `Libm` | Welford invariant; in floating point an error induction beside the exact recurrence |
| C11 | pipeline | exact; IEEE+Libm (`_rounded`) | C08, optimality/tie-breaking of matching, lag 0 maximises autocorrelation; error of every stage |
| C12 | level matching | exact; IEEE+Libm (`_rounded`, of the matched samples) | homogeneity of RMS; relative error of the two factors |
| C13 | level matching | exact; IEEE+Libm (`_rounded`) | algebra; relative error of a sum of squares, its root, the logarithm and the power |
| C14 | manager with filterbank state | any | induction over histories, state simulation |
| C15 | CLI batch loop | any | induction over the list |
| C16 | manager | any | case analysis |
| C17, C18 | WAV loading | any / exact | list induction |
| C19 | alignment | any | evaluation |
| C20, C21 | spectrogram builder | any | windows lemma, frame function independent of state |
| C22 | ERB frequencies | exact, IEEE | monotonicity of log/exp, reversal lemma |
| C23, C24 | preparation | exact and IEEE | pointwise bounds; largest and smallest of values that are close are close |
| C25-C27 | patch creators | any | arithmetic on indices |
| C28 | pipeline | any | case analysis of the drop rule |
| C29, C30 | VAD | any; exact and IEEE in terms of samples | induction over frames; sums of squares of 16-bit values are exact, and the quotient and root cannot round across 5000 |
| C31 | normalisation | exact, IEEE (exact gains) | homogeneity; equal quotients round equally, and the 16-bit value depends on the quotient only |
| C32 | matching | any | invariant of the back-trace table |
| C33 | matching | exact + IEEE | dynamic-programming optimality by induction on patches; monotone rounding of running totals |
| C34 | matching | exact + IEEE | bounds invariant, sizes of table cells |
| C35, C36 | matching, fine alignment | any | case analysis per patch |
| C37-C39 | alignment, slicing | any / exact | list lemmas |
| C40 | correlation via FFT | exact; IEEE+Libm (`_rounded`) | convolution theorem for the DFT, no wrap-around; Parseval and Cauchy-Schwarz for the errors |
| C41 | next_pow_two | n/a | bit-level argument for all 64-bit numbers |
| C42, C43 | convolution | exact, IEEE up to rounding | index algebra; nine products and nine additions, each within one rounding unit |
| C44 | biquad | exact, IEEE (stable section from rest) | induction over the signal; the five roundings of a step against the recurrence, with the size bound of C03 |
| C45 | ERB coefficients | exact, IEEE | modulus of a conjugate pair |
| C46, C47 | pipeline | IEEE | NaN propagation; constant spectrogram |
| C48-C50 | CLI | any | list lemmas |
| C51 | radius cast | any | arithmetic |
| C52 | patch times | exact + IEEE | algebra; error bounds of the frame times |
| C53 | frame duration | exact + IEEE | arithmetic; error bounds of the frame times |
| C54 | drop rule | any | induction |
| C55 | pipeline | any | functional dependence |
| C56 | envelope | exact; IEEE+Libm (`_rounded`) | inverse DFT; Parseval for the errors |
| C57 | manager, patch creators | any | evaluation, shape of patches |
| C58 | CLI, results CSV | any | number of fields as a function of the number of patches |
| C59 | CLI | any | trace as a function of file contents |
| C60 | VAD patch creator | any | slice arithmetic |
| C61 | matching | any | last offset scanned is past the end |
| C62 | matching, fine alignment | exact + IEEE (up to one sample) | slice bounds, times of matched patches |
| C63 | pipeline | exact | success of every stage |
| C64 | pipeline | any | counting the patches kept by the drop rule |
| C65 | NSIM | exact; `C65_same_shapes`, `C65_same_shapes_files` any; `C65_rounded`, `C65_energy_rounded`, `C65_deviation_rounded` IEEE + `Libm` | the code's matrices against the published formula written with sums over windows; in floating point within 0.00001 where both windows have a variance of at least 1/16 or one is zero |
| C66 | gammatone filter | exact | transfer function on the unit circle |
| C67 | ERB spacing | exact, IEEE | ERB-number scale (logarithm) of the centre frequencies |
| C68 | mappers | any + exact; IEEE+Libm (`_rounded`) | the MOS as a function of fvnsim; the fit does not amplify errors above 47-fold |
| C69 | aggregation | exact | sums of squares |
| C70 | alignment | exact; IEEE+Libm (`_rounded`) | C40 and C56 combined; uniqueness of the lag |
| C71 | pipeline | exact | refinement: every stage replaced by its description on lists of samples (`Spec/Pipeline.lean`) |
| C72 | matching | exact + IEEE | as C33, with the value function positive inside the windows and zero outside, so that no back pointer leaves them |
| C73 | NSIM | IEEE | size bounds through convolution, division and means |
| C74 | pipeline | IEEE | size bounds through every stage; error analysis of the filter design for stability and size of the coefficients |
| C75 | pipeline | any + exact; IEEE+Libm (`_rounded`) | C70 applied to a delayed copy; the correlation of the two envelopes written as autocorrelation plus a small term |
| C76 | pipeline | exact | C11 (every patch is matched), C62 and C64 combined |
| C77 | options | any + exact; IEEE (`_rounded`) | the options are invariant along every history; C68, C72 and C36 for the manager so constructed |
| C78 | pipeline | exact | gains of the filters bounded for a given length; prepared spectrograms of zeros are perfectly similar everywhere |
| C79 | arguments | any | case analysis of the declarations; decimal numbers by induction on their digits |
| C80 | matching, pipeline, command line | any; IEEE for the 15 s bound | equality of slide loops by induction, congruence through the pipeline |
| C81 | patch selection | exact and IEEE | the detector's decision in terms of samples (`C30_in_samples`) |
| C82 | command line tool | any | the possible ends of a run by cases |
| C83 | loading, pipeline | exact for any channels; IEEE for stereo | loading frame by frame; bit patterns from `BitLaws` |
| C84 | default model file | exact | expansion of the kernels around perfect similarity; the sums of the coefficients are evaluated by the kernel (`Lemmas/Svr*.lean`) |
| C85 | coarse matching | exact and IEEE | both searches are optimal in their windows (C72), and the windows are nested |
| C86 | aggregation, wideband mapping | exact; also IEEE (`_rounded`) except the score per patch | sums exchanged; bounds of the exponential at 1 and at 0.15 |
| C87 | both build profiles | debug to release: any arithmetic; release to debug: IEEE, up to 2^30 samples | congruence of the two profiles through every operation; overflow bounds |
| C88 | pipeline, all result fields | IEEE | finite Welford deviations and patch energies through every stage; at least two frames per patch |
| C89 | preparation, NSIM, matching | exact (IEEE in C88) | prepared levels are not negative; what is reported comes from a comparison of prepared levels |
| C90 | command line, batch loop | any | runs from equivalent states give equal results (C14); lists of pairs by induction |
| C91 | command line, outputs | any | case analysis on the writes of `write_results`; prefix of records accepted by the CSV writer |
| C92 | whole comparison, files | `ℝ` (iff); IEEE (only-if; iff for ordinary samples, given the alignment); any (files) | walk along the stages with `Errs`; lengths of the two slices and of their overlap bound below by a window |
| C93 | whole comparison | `ℝ` (iff); IEEE (iff for ordinary samples, given the alignment) | success by the totality of every stage, necessity from the patch count loop and the reach of the search window; panics from C92 |
| C94 | texts of the two output files | any (null: IEEE) | a strict JSON reader and a CSV splitter as specification; printing followed by reading is the identity, by induction over lists with any following text |
| C95 | texts of errors, exit status | any | the values of the maximal runs of digits as specification; one character tells the texts apart; status and message follow from the first failing pair by induction over the list (reusing C49, C90) |
| C96 | gain and polarity of a copy | exact for any gain; IEEE for inverted copies | filters are linear and start from zero conditions, so the root mean square scales; level matching leaves the reference or its inverse; then as C11; correlation with a nearly proportional envelope for the delay; in floating point every filter state of the inverse is the opposite, and squares agree bit for bit (`BitLaws`) |
| C97 | similarity 1 implies equal levels | exact; IEEE for the distance of levels in a patch | every cell is a product of two factors at most 1, so all are 1; equal windowed averages; the centre weight 0.619 outweighs the rest, so the cell with the largest difference bounds it; C71 and C86 for runs |
| C98 | appended silence and level | exact; IEEE for the factor | root mean square over all samples; filters are linear and frames local (C21, C96); the peak of a frame is the raised band of the degraded signal; C97 for the similarity; a section with nonzero leading coefficient is injective |
| C99 | small differences of levels or samples | exact; IEEE for patches and preparation | in a cell, 1 minus each factor is a squared difference over at least a constant; variance of the difference; logarithm above a floor; optimality of the matching (C33) against the matching of equal positions, for long signals an induction over the table with values above the number of earlier patches, C36 and C86 for runs; the filter bank is linear and bounded (C44, C24), level matching undoes at most a multiple of the difference |

## 5. Partial results and limits

No property is left partial. The limits of the statements are these.

* C63, C66, C69, C71, C76, C78, C84 and parts of C03, C04, C07 and C65 (nearly flat windows; whole runs in C07), C18, C22, the linearity in C44, C45, C67, C97 and C99 (runs), C98 (spectrograms) are about exact arithmetic.
  The computed numbers differ from the exact ones by rounding errors that are not bounded here. C11, C40, C56, C70 and C75 have a `_rounded` version for signals of up to `2^24` samples,
  C12 and C13 for up to `2^31` samples. `C12_rounded` is about the samples that are compared, not about the score: a score may depend
  discontinuously on the samples (matching of patches, voice activity).
* C46 and C47 assume the size and drift conditions that are written in their statements. `C47_silent_scored` adds that runs with a silent
  reference and an ordinary degraded file do return `Ok`.
* Claims about comparing two patches (C07, C09, C65, C97, C99) are about patches of the same shape. For different shapes `ndarray` broadcasts a
  patch of one row or one column; the model has a panic there (`Mat.zip`). A comparison of two signals only compares patches of the same shape
  (C71: as many frames of the one as of the other, or two stretches of equal length analysed anew). `C65_same_shapes` and `C65_same_shapes_files` prove that a run never gets there: every pair of patches a comparison of signals of one sample rate combines has the same shape.
* C24 excludes infinite entries: `inf - inf` would produce new NaNs.
* C28, C27, C61: "panics" covers the debug and the release profile, which differ in `usize` subtraction.
* C58: what the CSV file holds of the failing record is left open.

## 6. Defects and anomalies of the code found on the way

C27 (short wideband references), C28 (single patch references, unreachable error), C41 (`next_pow_two`), C46 and C47 (silence), C49 (debug JSON), C53, C62 and C76 (drift of
frame times), C56 (envelope), C57 (exchanged patch sizes), C58 and C59 (results CSV), C60 (voice activity offset), C61 (short degraded files), C78 (very quiet references), C79 (argument declarations), C81 (polarity of the reference), C84 (a less similar band can raise the score).
The theorems state the behaviour as it is; fixing one of these defects would make the corresponding theorem fail.
