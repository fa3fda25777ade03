import Verif.Props.Result
import Verif.Lemmas.History
import Verif.Spec.Cli

/-! # The command line tool (C15, C48, C49, C50, C58, C59) -/

set_option linter.unusedSectionVars false

namespace Visqol
variable {F : Type} [Flt F] [RustFft F]

/-! ## C15: batch runs -/

theorem runBatch_ok {p : Profile} {world : World F} {m₀ : Manager F} : ∀ {pairs : List PathPair} {rs : List (SimilarityResult F)}
    {m : Manager F}, m.Sim m₀ → EachAlone p world m₀ pairs rs → runBatch p world m pairs = .ok rs
  | [], _, _, _, h => by cases h; rfl
  | q :: pairs, _, m, hs, h => by
    cases h with
    | cons h1 h2 =>
      obtain ⟨m', h1⟩ := h1
      have he := run_sim hs p world q.reference q.degraded
      rw [h1, dropState_ok] at he
      obtain ⟨m1, hm1⟩ := dropState_eq_ok he
      unfold runBatch
      rw [hm1]
      simp only [ok_bind]
      rw [runBatch_ok ((run_keeps hm1).trans hs) h2]
      rfl

theorem runBatch_error {p : Profile} {world : World F} {m₀ : Manager F} {q : PathPair} {post : List PathPair} {e : Fail}
    (hq : m₀.run p world q.reference q.degraded = .error e) : ∀ {pre : List PathPair} {rs : List (SimilarityResult F)}
    {m : Manager F}, m.Sim m₀ → EachAlone p world m₀ pre rs → runBatch p world m (pre ++ q :: post) = .error e
  | [], _, m, hs, _ => by
    have he := run_sim hs p world q.reference q.degraded
    rw [hq, dropState_error] at he
    simp only [List.nil_append]
    unfold runBatch
    cases hr : m.run p world q.reference q.degraded with
    | ok x => rw [hr] at he; cases he
    | error e' => rw [hr] at he; cases he; rfl
  | x :: pre, _, m, hs, h => by
    cases h with
    | cons h1 h2 =>
      obtain ⟨m', h1⟩ := h1
      have he := run_sim hs p world x.reference x.degraded
      rw [h1, dropState_ok] at he
      obtain ⟨m1, hm1⟩ := dropState_eq_ok he
      rw [List.cons_append]
      unfold runBatch
      rw [hm1]
      simp only [ok_bind]
      rw [runBatch_error hq ((run_keeps hm1).trans hs) h2]
      rfl

/-- C15, success: if every listed pair, compared alone by a fresh manager, yields a result, then the tool reports exactly
these results, in list order. -/
theorem C15_batch_ok {p : Profile} {world : World F} {csv : String → CsvContent} {wr : String → Bool} {a : CliArgs}
    {pairs : List PathPair} {m : Manager F} {rs : List (SimilarityResult F)} (hp : buildFilePairPaths csv a = .ok pairs)
    (hm : Manager.new world a.variant.numBands a.variant a.searchWindowRadius = .ok m) (h : EachAlone p world m pairs rs) :
    cliCompute p world csv a = .ok (pairs, rs) ∧ cliMain p world csv wr a = writeResults wr a rs pairs := by
  have hc : cliCompute p world csv a = .ok (pairs, rs) := by
    simp only [cliCompute, hp, hm, ok_bind, runBatch_ok (Manager.Sim.refl m) h]
  exact ⟨hc, by simp only [cliMain, hc]⟩

/-- C15, failure: if the first pair that fails alone fails with `e`, the tool ends with `e` and produces no output at all:
no file is written, nothing is printed. -/
theorem C15_batch_fail {p : Profile} {world : World F} {csv : String → CsvContent} {wr : String → Bool} {a : CliArgs}
    {pre post : List PathPair} {q : PathPair} {m : Manager F} {rs : List (SimilarityResult F)} {e : Fail}
    (hp : buildFilePairPaths csv a = .ok (pre ++ q :: post))
    (hm : Manager.new world a.variant.numBands a.variant a.searchWindowRadius = .ok m) (h : EachAlone p world m pre rs)
    (hq : m.run p world q.reference q.degraded = .error e) : cliMain p world csv wr a = ([], .error e) := by
  simp only [cliMain, cliCompute, hp, hm, ok_bind, runBatch_error hq (Manager.Sim.refl m) h, error_bind]

/-- C15: the two cases are the only ones: every list of pairs is covered by `C15_batch_ok` or `C15_batch_fail`. -/
theorem C15_cases (p : Profile) (world : World F) (m : Manager F) : ∀ pairs : List PathPair,
    (∃ rs, EachAlone p world m pairs rs) ∨
    ∃ pre q post rs e, pairs = pre ++ q :: post ∧ EachAlone p world m pre rs ∧
      m.run p world q.reference q.degraded = .error e
  | [] => .inl ⟨[], .nil⟩
  | q :: pairs => by
    cases hq : m.run p world q.reference q.degraded with
    | error e => exact .inr ⟨[], q, pairs, [], e, rfl, .nil, hq⟩
    | ok x =>
      rcases C15_cases p world m pairs with ⟨rs, h⟩ | ⟨pre, y, post, rs, e, h1, h2, h3⟩
      · exact .inl ⟨x.2 :: rs, .cons ⟨x.1, hq⟩ h⟩
      · exact .inr ⟨q :: pre, y, post, x.2 :: rs, e, by rw [h1]; rfl, .cons ⟨x.1, hq⟩ h2, h3⟩

/-- C15, converse: if the tool ends normally, every pair succeeds alone and the trace is that of `write_results` on these results. -/
theorem C15_ok_only {p : Profile} {world : World F} {csv : String → CsvContent} {wr : String → Bool} {a : CliArgs}
    (h : (cliMain p world csv wr a).2 = .ok ()) : ∃ pairs m rs, buildFilePairPaths csv a = .ok pairs ∧
      Manager.new world a.variant.numBands a.variant a.searchWindowRadius = .ok m ∧ EachAlone p world m pairs rs ∧
      cliMain p world csv wr a = writeResults wr a rs pairs := by
  cases hp : buildFilePairPaths csv a with
  | error e => simp [cliMain, cliCompute, hp] at h
  | ok pairs =>
    cases hm : Manager.new world a.variant.numBands a.variant a.searchWindowRadius with
    | error e => simp [cliMain, cliCompute, hp, hm] at h
    | ok m =>
      rcases C15_cases p world m pairs with ⟨rs, hr⟩ | ⟨pre, q, post, rs, e, h1, h2, h3⟩
      · exact ⟨pairs, m, rs, rfl, rfl, hr, (C15_batch_ok hp hm hr).2⟩
      · rw [C15_batch_fail (h1 ▸ hp) hm h2 h3] at h; cases h

/-! ## C48: which pairs are compared -/

/-- C48: with both file options exactly that pair is compared, whatever the batch file. -/
theorem C48_pair (csv : String → CsvContent) (a : CliArgs) {r d : String} (hr : a.referenceFile = some r)
    (hd : a.degradedFile = some d) : buildFilePairPaths csv a = .ok [⟨r, d⟩] := by
  simp only [buildFilePairPaths, hr, hd]

/-- C48: without both file options and without a batch file nothing is compared. -/
theorem C48_nothing (csv : String → CsvContent) (a : CliArgs) (h : a.referenceFile = none ∨ a.degradedFile = none)
    (hb : a.batchInputCsv = none) : buildFilePairPaths csv a = .ok [] := by
  unfold buildFilePairPaths
  rcases h with h | h
  · rw [h, hb]
  · rw [h, hb]; cases a.referenceFile <;> rfl

theorem buildFilePairPaths_batch (csv : String → CsvContent) (a : CliArgs) (h : a.referenceFile = none ∨ a.degradedFile = none)
    {path : String} (hb : a.batchInputCsv = some path) : buildFilePairPaths csv a = readFilesToCompare (csv path) := by
  unfold buildFilePairPaths
  rcases h with h | h
  · rw [h, hb]
  · rw [h, hb]; cases a.referenceFile <;> rfl

theorem readRecords_ok {w : Nat} (hw : 2 ≤ w) : ∀ {rows : List (List String)}, (∀ x ∈ rows, x.length = w) →
    readRecords w rows = .ok (rows.map fun x => ⟨x.getD 0 "", x.getD 1 ""⟩)
  | [], _ => rfl
  | x :: rows, h => by
    have hx := h x (by simp)
    unfold readRecords
    rw [if_neg (by simpa using hx)]
    match x, hx with
    | [], hx => simp at hx; omega
    | [_], hx => simp at hx; omega
    | a :: b :: t, _ =>
      dsimp only
      rw [readRecords_ok hw fun y hy => h y (by simp [hy])]
      rfl

/-- C48: otherwise the data rows of the batch file are compared in order, the first two columns being reference and degraded
file; the names in the header row do not matter. -/
theorem C48_batch (csv : String → CsvContent) (a : CliArgs) (h : a.referenceFile = none ∨ a.degradedFile = none)
    {path : String} (hb : a.batchInputCsv = some path) {header : List String} {rows : List (List String)}
    (hc : csv path = some (header :: rows)) (hw : 2 ≤ header.length) (hr : ∀ x ∈ rows, x.length = header.length) :
    buildFilePairPaths csv a = .ok (rows.map fun x => ⟨x.getD 0 "", x.getD 1 ""⟩) := by
  rw [buildFilePairPaths_batch csv a h hb, hc]
  exact readRecords_ok hw hr

/-- C48, malformed batch files: a row of another width makes the tool fail with the CSV reader's error (rows before it are
not compared); an unreadable file panics; a file without any row gives nothing to compare. -/
theorem C48_batch_malformed (csv : String → CsvContent) (a : CliArgs) (h : a.referenceFile = none ∨ a.degradedFile = none)
    {path : String} (hb : a.batchInputCsv = some path) :
    (∀ header pre bad post, csv path = some (header :: (pre ++ bad :: post)) → 2 ≤ header.length →
      (∀ x ∈ pre, x.length = header.length) → bad.length ≠ header.length →
      buildFilePairPaths csv a = .error .external) ∧
    (csv path = none → buildFilePairPaths csv a = .error (.panic .expect)) ∧
    (csv path = some [] → buildFilePairPaths csv a = .ok []) := by
  refine ⟨fun header pre bad post hc hw hpre hbad => ?_, fun hc => ?_, fun hc => ?_⟩
  · rw [buildFilePairPaths_batch csv a h hb, hc]
    show readRecords header.length (pre ++ bad :: post) = _
    clear hc
    induction pre with
    | nil => simp only [List.nil_append]; unfold readRecords; rw [if_pos hbad]
    | cons x pre ih =>
      rw [List.cons_append]
      unfold readRecords
      have hx := hpre x (by simp)
      rw [if_neg (by simpa using hx)]
      match x, hx with
      | [], hx => simp at hx; omega
      | [_], hx => simp at hx; omega
      | a :: b :: t, _ =>
        dsimp only
        rw [ih fun y hy => hpre y (by simp [hy])]
        rfl
  · rw [buildFilePairPaths_batch csv a h hb, hc]; rfl
  · rw [buildFilePairPaths_batch csv a h hb, hc]; rfl

/-! ## The trace of a successful tool run -/

theorem debugJson_eq (rs : List (SimilarityResult F)) : debugJson rs = rs.getLast? := by
  unfold debugJson
  induction rs using List.reverseRecOn with
  | nil => rfl
  | append_singleton l a _ => rw [List.foldl_append]; simp

theorem takeWhile_length {α : Type} (q : α → Bool) : ∀ l : List α, (l.takeWhile q).length = l.length ↔ ∀ x ∈ l, q x = true
  | [] => by simp
  | a :: l => by
    rw [List.takeWhile_cons]
    cases ha : q a with
    | false => simp [ha]
    | true => simp [ha, takeWhile_length q l]

theorem acceptedRecords_all {rs : List (List F)} :
    (acceptedRecords rs).length = rs.length ↔ ∀ x ∈ rs, ∀ y ∈ rs, x.length = y.length := by
  cases rs with
  | nil => simp [acceptedRecords]
  | cons r rs =>
    simp only [acceptedRecords]
    rw [takeWhile_length]
    constructor
    · intro h x hx y hy
      have h1 := h x hx
      have h2 := h y hy
      simp only [beq_iff_eq] at h1 h2
      rw [h1, h2]
    · intro h x hx
      simpa using h x hx r (by simp)

/-- The complete trace of `write_results` when it ends normally. -/
theorem writeResults_ok {wr : String → Bool} {a : CliArgs} {rs : List (SimilarityResult F)} {pairs : List PathPair}
    (h : (writeResults wr a rs pairs).2 = .ok ()) :
    (writeResults wr a rs pairs).1 = [.banner] ++ ((a.outputDebug.toList.map fun path => .jsonFile path rs.getLast?) ++
      ((a.resultsCsv.toList.map fun path => .csvFile path (rs.map SimilarityResult.fields)) ++
        (rs.zip pairs).flatMap fun x => writeToConsole a.verbose x.1 x.2)) := by
  unfold writeResults writeDebugJson writeResultsToCsv at *
  rw [debugJson_eq] at *
  cases hj : a.outputDebug with
  | none =>
    cases hc : a.resultsCsv with
    | none => simp [Trace.andThen, optTrace]
    | some cpath =>
      simp only [hj, hc, Trace.andThen, optTrace] at h ⊢
      by_cases h2 : wr cpath
      · by_cases h3 : (acceptedRecords (rs.map SimilarityResult.fields)).length = (rs.map SimilarityResult.fields).length
        · simp [h2, h3]
        · rw [if_pos h2, if_neg h3] at h; cases h
      · rw [if_neg h2] at h; cases h
  | some jpath =>
    by_cases h1 : wr jpath
    · cases hc : a.resultsCsv with
      | none => simp [Trace.andThen, optTrace, h1]
      | some cpath =>
        simp only [hj, hc, Trace.andThen, optTrace, h1, if_true] at h ⊢
        by_cases h2 : wr cpath
        · by_cases h3 : (acceptedRecords (rs.map SimilarityResult.fields)).length = (rs.map SimilarityResult.fields).length
          · simp [h2, h3]
          · rw [if_pos h2, if_neg h3] at h; cases h
        · rw [if_neg h2] at h; cases h
    · simp [hj, h1, Trace.andThen, optTrace] at h

theorem jsonFiles_console (v : Bool) (l : List (SimilarityResult F × PathPair)) :
    jsonFiles (l.flatMap fun x => writeToConsole v x.1 x.2) = [] := by
  induction l with
  | nil => rfl
  | cons x l ih =>
    rw [List.flatMap_cons, jsonFiles, List.filterMap_append]
    unfold jsonFiles at ih
    rw [ih]; cases v <;> rfl

theorem csvFiles_console (v : Bool) (l : List (SimilarityResult F × PathPair)) :
    csvFiles (l.flatMap fun x => writeToConsole v x.1 x.2) = [] := by
  induction l with
  | nil => rfl
  | cons x l ih =>
    rw [List.flatMap_cons, csvFiles, List.filterMap_append]
    unfold csvFiles at ih
    rw [ih]; cases v <;> rfl

theorem consoleLines_console (v : Bool) (l : List (SimilarityResult F × PathPair)) :
    consoleLines (l.flatMap fun x => writeToConsole v x.1 x.2) =
      l.flatMap fun x => if v then [.inl x.2, .inr x.1.moslqo] else [.inr x.1.moslqo] := by
  induction l with
  | nil => rfl
  | cons x l ih =>
    rw [List.flatMap_cons, consoleLines, List.filterMap_append]
    unfold consoleLines at ih
    rw [ih, List.flatMap_cons]; cases v <;> rfl

theorem mosLines_console (v : Bool) (l : List (SimilarityResult F × PathPair)) :
    mosLines (l.flatMap fun x => writeToConsole v x.1 x.2) = l.map fun x => x.1.moslqo := by
  induction l with
  | nil => rfl
  | cons x l ih =>
    rw [List.flatMap_cons, mosLines, List.filterMap_append]
    unfold mosLines at ih
    rw [ih]; cases v <;> rfl

theorem EachAlone.length {p : Profile} {world : World F} {m : Manager F} {pairs : List PathPair}
    {rs : List (SimilarityResult F)} (h : EachAlone p world m pairs rs) : pairs.length = rs.length := List.Forall₂.length_eq h

/-! ## C49: the debug JSON file -/

/-- C49: whenever the tool ends normally, it has written the debug JSON file (if requested) exactly once, and that file holds
the last result alone (nothing if there was no pair). -/
theorem C49_debug_json_last {p : Profile} {world : World F} {csv : String → CsvContent} {wr : String → Bool} {a : CliArgs}
    {pairs : List PathPair} {m : Manager F} {rs : List (SimilarityResult F)} (hp : buildFilePairPaths csv a = .ok pairs)
    (hm : Manager.new world a.variant.numBands a.variant a.searchWindowRadius = .ok m) (hr : EachAlone p world m pairs rs)
    (h : (cliMain p world csv wr a).2 = .ok ()) :
    jsonFiles (cliMain p world csv wr a).1 = a.outputDebug.toList.map fun path => (path, rs.getLast?) := by
  rw [(C15_batch_ok (wr := wr) hp hm hr).2] at h ⊢
  rw [writeResults_ok h]
  unfold jsonFiles
  simp only [List.filterMap_append]
  have := jsonFiles_console a.verbose (rs.zip pairs)
  unfold jsonFiles at this
  rw [this]
  cases a.outputDebug <;> cases a.resultsCsv <;> rfl

/-! ## C50: the results CSV and the console -/

/-- C50: whenever the tool ends normally, the results CSV (if requested) holds one record per result in order, and the
console shows one MOS line per result in order, in verbose mode preceded by the paths of its pair. -/
theorem C50_rows {p : Profile} {world : World F} {csv : String → CsvContent} {wr : String → Bool} {a : CliArgs}
    {pairs : List PathPair} {m : Manager F} {rs : List (SimilarityResult F)} (hp : buildFilePairPaths csv a = .ok pairs)
    (hm : Manager.new world a.variant.numBands a.variant a.searchWindowRadius = .ok m) (hr : EachAlone p world m pairs rs)
    (h : (cliMain p world csv wr a).2 = .ok ()) :
    csvFiles (cliMain p world csv wr a).1 =
      (a.resultsCsv.toList.map fun path => (path, rs.map SimilarityResult.fields)) ∧
    mosLines (cliMain p world csv wr a).1 = rs.map (·.moslqo) ∧
    consoleLines (cliMain p world csv wr a).1 =
      (pairs.zip rs).flatMap fun x => if a.verbose then [.inl x.1, .inr x.2.moslqo] else [.inr x.2.moslqo] := by
  rw [(C15_batch_ok (wr := wr) hp hm hr).2] at h ⊢
  rw [writeResults_ok h]
  have hl := hr.length
  refine ⟨?_, ?_, ?_⟩
  · unfold csvFiles
    simp only [List.filterMap_append]
    have := csvFiles_console a.verbose (rs.zip pairs)
    unfold csvFiles at this
    rw [this]
    cases a.outputDebug <;> cases a.resultsCsv <;> rfl
  · unfold mosLines
    simp only [List.filterMap_append]
    have := mosLines_console a.verbose (rs.zip pairs)
    unfold mosLines at this
    rw [this]
    have e : (rs.zip pairs).map (fun x => x.1.moslqo) = rs.map (·.moslqo) := by
      rw [show (fun x : SimilarityResult F × PathPair => x.1.moslqo) = (·.moslqo) ∘ Prod.fst from rfl, ← List.map_map,
        List.map_fst_zip (by omega)]
    rw [e]
    cases a.outputDebug <;> cases a.resultsCsv <;> rfl
  · unfold consoleLines
    simp only [List.filterMap_append]
    have := consoleLines_console a.verbose (rs.zip pairs)
    unfold consoleLines at this
    rw [this]
    have e : (rs.zip pairs).flatMap (fun x => if a.verbose then [Sum.inl x.2, Sum.inr x.1.moslqo] else [Sum.inr x.1.moslqo]) =
        (pairs.zip rs).flatMap fun x => if a.verbose then [Sum.inl x.1, Sum.inr x.2.moslqo] else [Sum.inr x.2.moslqo] := by
      rw [← List.zip_swap pairs rs, List.flatMap_map]
      rfl
    rw [e]
    cases a.outputDebug <;> cases a.resultsCsv <;> rfl

/-! ## C58: the results CSV needs equal patch counts -/

theorem fields_length {nb : Nat} {r : SimilarityResult F} (h1 : r.fvnsim.length = nb) (h2 : r.fstdnsim.length = nb)
    (h3 : r.fvdegenergy.length = nb) (h4 : r.centerFreqBands.length = nb)
    (h5 : ∀ q ∈ r.patchSims, q.freqBandMeans.length = nb ∧ q.freqBandStddevs.length = nb ∧ q.freqBandDegEnergy.length = nb) :
    r.fields.length = 2 + 4 * nb + r.patchSims.length * (3 * nb + 5) := by
  have hp : ∀ l : List (PatchSim F), (∀ q ∈ l, q.freqBandMeans.length = nb ∧ q.freqBandStddevs.length = nb ∧
      q.freqBandDegEnergy.length = nb) → (l.flatMap PatchSim.fields).length = l.length * (3 * nb + 5) := by
    intro l
    induction l with
    | nil => intro _; simp
    | cons q l ih =>
      intro h
      rw [List.flatMap_cons, List.length_append, ih fun x hx => h x (by simp [hx])]
      obtain ⟨a, b, c⟩ := h q (by simp)
      simp only [PatchSim.fields, List.length_append, List.length_cons, List.length_nil, a, b, c]
      ring
  simp only [SimilarityResult.fields, List.length_append, List.length_cons, List.length_nil, hp _ h5, h1, h2, h3, h4]
  omega

theorem EachAlone.fields_length {p : Profile} {world : World F} {m : Manager F} {pairs : List PathPair}
    {rs : List (SimilarityResult F)} (h : EachAlone p world m pairs rs) :
    ∀ r ∈ rs, r.fields.length = 2 + 4 * m.numBands + r.patchSims.length * (3 * m.numBands + 5) := by
  intro r hr
  induction h with
  | nil => simp at hr
  | cons h1 _ ih =>
    rcases List.mem_cons.mp hr with rfl | hr
    · obtain ⟨m', h1⟩ := h1
      obtain ⟨a, b, c, d, _, e⟩ := C05_shapes_run h1
      exact Visqol.fields_length a b c d e
    · exact ih hr

/-- C58: all pairs of a batch succeed and a results CSV is requested.  If two results have different numbers of patches, the
tool panics after computing everything; no MOS is printed and no complete CSV is written.  If all numbers agree (and the
paths are writable) it ends normally. -/
theorem C58_csv_patch_counts {p : Profile} {world : World F} {csv : String → CsvContent} {wr : String → Bool} {a : CliArgs}
    {pairs : List PathPair} {m : Manager F} {rs : List (SimilarityResult F)} (hp : buildFilePairPaths csv a = .ok pairs)
    (hm : Manager.new world a.variant.numBands a.variant a.searchWindowRadius = .ok m) (hr : EachAlone p world m pairs rs)
    {path : String} (hc : a.resultsCsv = some path) (hw : ∀ q, wr q = true) :
    ((∃ x ∈ rs, ∃ y ∈ rs, x.patchSims.length ≠ y.patchSims.length) →
      (cliMain p world csv wr a).2 = .error (.panic .expect) ∧ mosLines (cliMain p world csv wr a).1 = [] ∧
      csvFiles (cliMain p world csv wr a).1 = []) ∧
    ((∀ x ∈ rs, ∀ y ∈ rs, x.patchSims.length = y.patchSims.length) → (cliMain p world csv wr a).2 = .ok ()) := by
  rw [(C15_batch_ok (wr := wr) hp hm hr).2]
  have hf := hr.fields_length
  have key : (acceptedRecords (rs.map SimilarityResult.fields)).length = (rs.map SimilarityResult.fields).length ↔
      ∀ x ∈ rs, ∀ y ∈ rs, x.patchSims.length = y.patchSims.length := by
    rw [acceptedRecords_all]
    constructor
    · intro h x hx y hy
      have := h _ (List.mem_map_of_mem hx) _ (List.mem_map_of_mem hy)
      rw [hf x hx, hf y hy] at this
      exact Nat.eq_of_mul_eq_mul_right (by omega : 0 < 3 * m.numBands + 5) (by omega)
    · intro h u hu v hv
      obtain ⟨x, hx, rfl⟩ := List.mem_map.mp hu
      obtain ⟨y, hy, rfl⟩ := List.mem_map.mp hv
      rw [hf x hx, hf y hy, h x hx y hy]
  constructor
  · rintro ⟨x, hx, y, hy, hne⟩
    have hn : ¬ (acceptedRecords (rs.map SimilarityResult.fields)).length = (rs.map SimilarityResult.fields).length :=
      fun h => hne (key.mp h x hx y hy)
    unfold writeResults writeDebugJson writeResultsToCsv
    simp only [hc, hw, if_true, optTrace, if_neg hn]
    cases a.outputDebug <;> simp [Trace.andThen, mosLines, csvFiles]
  · intro h
    have hn := key.mpr h
    unfold writeResults writeDebugJson writeResultsToCsv
    simp only [hc, hw, if_true, optTrace, if_pos hn]
    cases a.outputDebug <;> simp [Trace.andThen]

/-! ## C59: results are not tied to file names -/

theorem run_content {p : Profile} {world : World F} {m : Manager F} {r d r' d' : String} (hr : world.wav r = world.wav r')
    (hd : world.wav d = world.wav d') : m.run p world r d = m.run p world r' d' := by
  simp only [Manager.run, hr, hd]

/-- C59: if the files of two batches have pairwise the same contents, their results CSVs, debug JSON files and (without
`--verbose`) the whole console output coincide: no output identifies the pair it belongs to. -/
theorem C59_no_names {p : Profile} {world : World F} {csv csv' : String → CsvContent} {wr : String → Bool} {a a' : CliArgs}
    {pairs pairs' : List PathPair} (hp : buildFilePairPaths csv a = .ok pairs) (hp' : buildFilePairPaths csv' a' = .ok pairs')
    (hsame : List.Forall₂ (fun x y => world.wav x.reference = world.wav y.reference ∧
      world.wav x.degraded = world.wav y.degraded) pairs pairs')
    (hv : a'.variant = a.variant) (hk : a'.searchWindowRadius = a.searchWindowRadius) (ho : a'.outputDebug = a.outputDebug)
    (hc : a'.resultsCsv = a.resultsCsv) (hq : a.verbose = false) (hq' : a'.verbose = false) :
    cliMain p world csv wr a = cliMain p world csv' wr a' := by
  have hb : ∀ {pairs pairs' : List PathPair}, List.Forall₂ (fun x y => world.wav x.reference = world.wav y.reference ∧
      world.wav x.degraded = world.wav y.degraded) pairs pairs' → ∀ m : Manager F,
      runBatch p world m pairs = runBatch p world m pairs' := by
    intro pairs pairs' h
    induction h with
    | nil => intro m; rfl
    | cons h1 _ ih =>
      intro m
      unfold runBatch
      rw [run_content h1.1 h1.2]
      congr 1
      funext x
      dsimp only
      rw [ih]
  have hw : ∀ rs : List (SimilarityResult F), rs.length = pairs.length →
      writeResults wr a rs pairs = writeResults wr a' rs pairs' := by
    intro rs hl
    have hl' : rs.length = pairs'.length := hl.trans hsame.length_eq
    have e : ∀ ps : List PathPair, rs.length = ps.length → ((rs.zip ps).flatMap fun x => writeToConsole false x.1 x.2) =
        rs.map fun r => Effect.mosLine r.moslqo := by
      clear hl hl'
      induction rs with
      | nil => intro ps _; rfl
      | cons r rs ih =>
        intro ps hps
        cases ps with
        | nil => simp at hps
        | cons q ps =>
          rw [List.zip_cons_cons, List.flatMap_cons, ih ps (by simpa using hps)]
          rfl
    unfold writeResults
    rw [hq, hq', ho, hc, e pairs hl, e pairs' hl']
  have hlen : ∀ {m : Manager F} {ps : List PathPair} {rs}, runBatch p world m ps = .ok rs → rs.length = ps.length := by
    intro m ps
    induction ps generalizing m with
    | nil => intro rs h; cases h; rfl
    | cons q ps ih =>
      intro rs h
      unfold runBatch at h
      obtain ⟨x, _, h⟩ := bind_ok h
      obtain ⟨y, hy, h⟩ := bind_ok h
      cases h
      simp [ih hy]
  unfold cliMain cliCompute
  rw [hp, hp', hv, hk]
  simp only [ok_bind]
  cases hm : Manager.new world a.variant.numBands a.variant a.searchWindowRadius with
  | error e => rfl
  | ok m =>
    simp only [ok_bind]
    rw [← hb hsame m]
    cases hr : runBatch p world m pairs with
    | error e => rfl
    | ok rs =>
      simp only [ok_bind]
      exact hw rs (hlen hr)

end Visqol
