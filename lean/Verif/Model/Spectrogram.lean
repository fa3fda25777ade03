import Verif.Model.Filter

/-! # Spectrograms: construction and preparation -/

namespace Visqol
variable {F : Type} [Flt F]

/-- `spectrogram.rs:5-10`. -/
structure Spectrogram (F : Type) where
  data : Mat F
  centerFreqBands : List F
  deriving DecidableEq, Repr

/-- `gammatone_spectrogram_builder.rs:23-27`: the requested upper frequency (`u32` division). -/
def builderMaxFreq (nb sampleRate : Nat) : Nat := if nb = 21 then 8000 else sampleRate / 2

/-- `gammatone_spectrogram_builder.rs:52-56`: start positions of `windows(size).step_by(hop)`: every `hop`-th of the
`len - size + 1` window positions. -/
def frameStarts (len size hop : Nat) : List Nat :=
  (List.range ((len - size + 1 + (hop - 1)) / hop)).map (· * hop)

/-- `gammatone_spectrogram_builder.rs:65-73`: squares, row means and square roots of one filtered frame. -/
def frameEnergies (frameLen : Nat) (rows : List (List F)) : M (List F) := do
  let means ← expect (Mat.meanRows ⟨frameLen, rows.map (List.map fun e => e * e)⟩)
  .ok (means.map Flt.sqrt)

/-- `gammatone_spectrogram_builder.rs:58-77`: one iteration of the frame loop. -/
def processFrame (nb : Nat) (fb : FilterBank F) (frame : List F) : M (FilterBank F × List F) := do
  let fb := fb.reset nb
  let r ← fb.applyFilter nb frame
  let e ← frameEnergies frame.length r.2
  .ok (r.1, e)

/-- `gammatone_spectrogram_builder.rs:80-83` `sort_by(partial_cmp().expect())`: panics on NaN (when there is anything to compare), otherwise a stable sort. -/
def sortFreqs (l : List F) : M (List F) :=
  if 2 ≤ l.length ∧ l.any Flt.isNaN then .error (.panic .expect)
  else .ok (l.mergeSort fun a b => !Flt.lt b a)

/-- Assemble the output matrix from the computed columns; columns beyond the computed ones stay zero
(`Array2::zeros`, `gammatone_spectrogram_builder.rs:50, 75-77`).  Writing a column past `numCols` panics. -/
def assembleColumns (nb numCols : Nat) (cols : List (List F)) : M (Mat F) :=
  if cols.length ≤ numCols then
    .ok ⟨numCols, (List.range nb).map fun j =>
      cols.map (fun c => c.getD j 0.0) ++ List.replicate (numCols - cols.length) 0.0⟩
  else .error (.panic .index)

/-- `gammatone_spectrogram_builder.rs:16-85` `GammatoneSpectrogramBuilder::build`, returning the filterbank as left
behind.  The state left behind by a failing call is not tracked (histories treat it as arbitrary).
`ndarray`'s `windows` panics for size 0. -/
def buildSpectrogram (nb : Nat) (fb : FilterBank F) (s : AudioSignal F) (w : AnalysisWindow F) :
    M (FilterBank F × Spectrogram F) := do
  let (coeffs, freqs) := makeFilters nb s.sampleRate fb.minFreq (Flt.ofNat (builderMaxFreq nb s.sampleRate))
  let fb := (fb.setCoeffs coeffs.reverse).reset nb
  let hop := w.hop
  if s.data.length < w.size then
    .error (.err (.tooFewSamples s.data.length w.size))
  else if hop = 0 then .error (.panic .divZero)
  else do
    let numCols := 1 + (s.data.length - w.size) / hop
    if w.size = 0 then .error (.panic .assert) else do
    let r ← foldE (fun (st : FilterBank F × List (List F)) start => do
      let fr ← processFrame nb st.1 ((s.data.drop start).take w.size)
      .ok (fr.1, st.2 ++ [fr.2])) (fb, []) (frameStarts s.data.length w.size hop)
    let m ← assembleColumns nb numCols r.2
    let sorted ← sortFreqs freqs
    .ok (r.1, ⟨m, sorted⟩)

/-! ## `spectrogram.rs` and `prepare_spectrograms_for_comparison` -/

/-- `spectrogram.rs:23-30`, the closure of `convert_to_db`. -/
def sampleToDb (e : F) : F :=
  let s := if Flt.eq e 0.0 then Flt.epsilon else Flt.abs e
  10.0 * Flt.log10 s

/-- `spectrogram.rs:22-32` `convert_to_db`. -/
def convertToDb (m : Mat F) : Mat F := m.map sampleToDb

/-- `spectrogram.rs:46-48` `raise_floor`. -/
def raiseFloor (m : Mat F) (floor : F) : Mat F := m.map (Flt.max floor)

/-- `spectrogram.rs:35-40` `get_minimum`. -/
def getMinimum (m : Mat F) : M F := expect (extremum .lt m.toList)

/-- `spectrogram.rs:43` `subtract_floor`. -/
def subtractFloor (m : Mat F) (floor : F) : Mat F := m.map (· - floor)

/-- `spectrogram.rs:57-64`: the floor of frame `j`, from the peaks of both frames. -/
def frameFloor (threshold : F) (a b : Mat F) (j : Nat) : M F := do
  let ma ← expect (extremum .gt (a.col j))
  let mb ← expect (extremum .gt (b.col j))
  .ok (Flt.max ma mb - threshold)

/-- Raise column `j` of every row to `floors[j]` where a floor is given (`spectrogram.rs:65-66`). -/
def applyFloors (floors : List F) (m : Mat F) : Mat F :=
  ⟨m.ncols, m.rows.map fun r => List.zipWith Flt.max floors r ++ r.drop floors.length⟩

/-- `spectrogram.rs:51-68` `raise_floor_per_frame`: column `j` of both spectrograms only depends on column `j`. -/
def raiseFloorPerFrame (threshold : F) (a b : Mat F) : M (Mat F × Mat F) := do
  let floors ← mapE (frameFloor threshold a b) (List.range (min a.ncols b.ncols))
  .ok (applyFloors floors a, applyFloors floors b)

/-- `audio_utils.rs:75-93` `prepare_spectrograms_for_comparison`. -/
def prepareSpectrograms (ref deg : Mat F) : M (Mat F × Mat F) := do
  let a := raiseFloor (convertToDb ref) (-45.0)
  let b := raiseFloor (convertToDb deg) (-45.0)
  let (a, b) ← raiseFloorPerFrame 45.0 a b
  let fa ← getMinimum a
  let fb ← getMinimum b
  let lowest := Flt.min fa fb
  .ok (subtractFloor a lowest, subtractFloor b lowest)

end Visqol
