import Verif.Model.Manager

/-! # The command line tool (`visqol/src`) -/

namespace Visqol
variable {F : Type} [Flt F] [RustFft F]

/-- `path_pair.rs:6-9`. -/
structure PathPair where
  reference : String
  degraded : String
  deriving DecidableEq, Repr

/-- `command_line_utils.rs:8-31, 38-103`, after parsing by `clap` (external). -/
structure CliArgs where
  variant : Variant
  batchInputCsv : Option String
  referenceFile : Option String
  degradedFile : Option String
  resultsCsv : Option String
  verbose : Bool
  outputDebug : Option String
  searchWindowRadius : Nat

/-- Content of a CSV file as split into records by the `csv` crate (external); `none` if it cannot be opened. -/
abbrev CsvContent := Option (List (List String))

/-- `command_line_utils.rs:126-132`: the record loop.  A record whose number of fields differs from the first record's is a
`csv::Error`; fewer than two fields panic in `deserialize`; surplus fields are ignored. -/
def readRecords (width : Nat) : List (List String) → M (List PathPair)
  | [] => .ok []
  | rec :: rest =>
    if rec.length ≠ width then .error .external
    else match rec with
      | a :: b :: _ => do
        let ps ← readRecords width rest
        .ok (⟨a, b⟩ :: ps)
      | _ => .error (.panic .expect)

/-- `command_line_utils.rs:117-134` `read_files_to_compare`: the first record is skipped as a header. -/
def readFilesToCompare (c : CsvContent) : M (List PathPair) :=
  match c with
  | none => .error (.panic .expect)
  | some [] => .ok []
  | some (header :: records) => readRecords header.length records

/-- `command_line_utils.rs:105-115` `build_file_pair_paths`. -/
def buildFilePairPaths (csv : String → CsvContent) (a : CliArgs) : M (List PathPair) :=
  match a.referenceFile, a.degradedFile with
  | some r, some d => .ok [⟨r, d⟩]
  | _, _ =>
    match a.batchInputCsv with
    | some path => readFilesToCompare (csv path)
    | none => .ok []

/-- `main.rs:19-29` `run`. -/
def runBatch (p : Profile) (world : World F) : Manager F → List PathPair → M (List (SimilarityResult F))
  | _, [] => .ok []
  | m, pair :: rest => do
    let (m, r) ← m.run p world pair.reference pair.degraded
    let rs ← runBatch p world m rest
    .ok (r :: rs)

/-- One observable action of the tool (`output_utils.rs:12-70`), in the order performed.  Text formatting is external: each constructor carries the
values that are formatted. -/
inductive Effect (F : Type) where
  /-- `output_utils.rs:17-18`: the version line -/
  | banner
  /-- the debug JSON file is replaced; `none` stands for an empty file -/
  | jsonFile (path : String) (content : Option (SimilarityResult F))
  /-- the results CSV file is replaced by these records (fields of each record) -/
  | csvFile (path : String) (records : List (List F))
  /-- the CSV writer fails at some record: the records before it are in the file, followed by an unspecified part of the
  failing one (the writer flushes when dropped) -/
  | csvAborted (path : String) (records : List (List F))
  /-- `output_utils.rs:35-38`: both path lines -/
  | paths (pair : PathPair)
  /-- `output_utils.rs:40`: the MOS line -/
  | mosLine (mos : F)
  /-- `output_utils.rs:73-87`: rows (similarity, centre frequency) -/
  | fvnsimTable (rows : List (F × F))
  /-- `output_utils.rs:90-123`: rows (index, patch) of which similarity and the four times are printed -/
  | patchTable (rows : List (Nat × F × (F × F) × (F × F)))
  deriving DecidableEq, Repr

/-- The trace of observable actions and how the program part ends. -/
abbrev Trace (F : Type) := List (Effect F) × M Unit

omit [Flt F] [RustFft F] in
/-- Sequencing of program parts: the second part only runs if the first one returns. -/
def Trace.andThen (a b : Trace F) : Trace F :=
  match a.2 with
  | .ok _ => (a.1 ++ b.1, b.2)
  | .error e => (a.1, .error e)

omit [Flt F] [RustFft F] in
/-- Flattening of a patch result into CSV fields (`serde` field order of `patch_similarity_comparator.rs:6-23`; the `csv`
crate writes nested sequences and structs field by field). -/
def PatchSim.fields (q : PatchSim F) : List F :=
  q.freqBandMeans ++ q.freqBandStddevs ++ q.freqBandDegEnergy ++ [q.similarity, q.refStart, q.refEnd, q.degStart, q.degEnd]

omit [Flt F] [RustFft F] in
/-- Flattening of a result into the fields of one CSV record (`serde` field order of `similarity_result.rs:7-22`). -/
def SimilarityResult.fields (r : SimilarityResult F) : List F :=
  [r.moslqo, r.vnsim] ++ r.fvnsim ++ r.fstdnsim ++ r.fvdegenergy ++ r.centerFreqBands ++ r.patchSims.flatMap PatchSim.fields

omit [Flt F] [RustFft F] in
/-- `output_utils.rs:48-55` `write_debug_json`: the string is overwritten in every iteration (empty for no results). -/
def debugJson (rs : List (SimilarityResult F)) : Option (SimilarityResult F) :=
  rs.foldl (fun _ r => some r) none

omit [Flt F] [RustFft F] in
/-- `output_utils.rs:52-55`: writing the debug JSON file. -/
def writeDebugJson (writable : String → Bool) (path : String) (rs : List (SimilarityResult F)) : Trace F :=
  if writable path then ([.jsonFile path (debugJson rs)], .ok ()) else ([], .error (.panic .expect))

omit [Flt F] [RustFft F] in
/-- `output_utils.rs:64-68`: the records accepted by the `csv` writer (non-flexible, as built by default): all records up to the first one whose
number of fields differs from that of the first record. -/
def acceptedRecords (records : List (List F)) : List (List F) :=
  match records with
  | [] => []
  | r :: _ => records.takeWhile fun x => x.length == r.length

omit [Flt F] [RustFft F] in
/-- `output_utils.rs:58-70` `write_results_to_csv`. -/
def writeResultsToCsv (writable : String → Bool) (path : String) (rs : List (SimilarityResult F)) : Trace F :=
  let records := rs.map SimilarityResult.fields
  if writable path then
    if (acceptedRecords records).length = records.length then ([.csvFile path records], .ok ())
    else ([.csvAborted path (acceptedRecords records)], .error (.panic .expect))
  else ([], .error (.panic .expect))

omit [Flt F] [RustFft F] in
/-- `output_utils.rs:34-46, 73-123` `write_to_console` with its two tables. -/
def writeToConsole (verbose : Bool) (r : SimilarityResult F) (pair : PathPair) : List (Effect F) :=
  (if verbose then [.paths pair] else []) ++ [.mosLine r.moslqo] ++
  (if verbose then
    [.fvnsimTable (r.fvnsim.zip r.centerFreqBands),
     .patchTable (r.patchSims.zipIdx.map fun x => (x.2, x.1.similarity, (x.1.refStart, x.1.refEnd), (x.1.degStart, x.1.degEnd)))]
   else [])

omit [Flt F] [RustFft F] in
/-- An optional program part (`if let Some`, `output_utils.rs:20-26`). -/
def optTrace {α : Type} (o : Option α) (f : α → Trace F) : Trace F :=
  match o with
  | some a => f a
  | none => ([], .ok ())

omit [Flt F] [RustFft F] in
/-- `output_utils.rs:12-31` `write_results`. -/
def writeResults (writable : String → Bool) (a : CliArgs) (rs : List (SimilarityResult F)) (pairs : List PathPair) : Trace F :=
  (Trace.andThen ([.banner], .ok ())
    (Trace.andThen (optTrace a.outputDebug fun path => writeDebugJson writable path rs)
      (Trace.andThen (optTrace a.resultsCsv fun path => writeResultsToCsv writable path rs)
        ((rs.zip pairs).flatMap fun x => writeToConsole a.verbose x.1 x.2, .ok ()))))

/-- `main.rs:48-68`: the number of bands per subcommand (`constants.rs:3-4`). -/
def Variant.numBands : Variant → Nat
  | .wideband _ => 21
  | .fullband _ => 32

/-- The computing part of `main.rs:41-68`: pairs to compare and their results. -/
def cliCompute (p : Profile) (world : World F) (csv : String → CsvContent) (a : CliArgs) :
    M (List PathPair × List (SimilarityResult F)) := do
  let pairs ← buildFilePairPaths csv a
  let m ← Manager.new world a.variant.numBands a.variant a.searchWindowRadius
  let rs ← runBatch p world m pairs
  .ok (pairs, rs)

/-- `main.rs:30-72` `main`, without logging and argument parsing.  `writable` says which paths can be written. -/
def cliMain (p : Profile) (world : World F) (csv : String → CsvContent) (writable : String → Bool) (a : CliArgs) : Trace F :=
  match cliCompute p world csv a with
  | .ok (pairs, rs) => writeResults writable a rs pairs
  | .error e => ([], .error e)

end Visqol
