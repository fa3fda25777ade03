import Verif.Props.Cli
import Verif.Props.Witness

/-! # Options that only concern the output (C82) -/

set_option linter.unusedSectionVars false

namespace Visqol
variable {F : Type} [Flt F] [RustFft F]

/-- The scores printed by a run, in order. -/
def printedScores (t : Trace F) : List F := t.1.filterMap fun | .mosLine v => some v | _ => none

/-- What a run writes to the results CSV file (complete files only). -/
def writtenCsv (t : Trace F) : List (List (List F)) := t.1.filterMap fun | .csvFile _ r => some r | _ => none

/-- What a run writes to the debug file. -/
def writtenJson (t : Trace F) : List (Option (SimilarityResult F)) := t.1.filterMap fun | .jsonFile _ c => some c | _ => none

/-- Two command lines that ask for the same comparisons: they differ at most in the verbose flag and in the output files. -/
structure SameComparisons (a b : CliArgs) : Prop where
  variant : a.variant = b.variant
  batch : a.batchInputCsv = b.batchInputCsv
  reference : a.referenceFile = b.referenceFile
  degraded : a.degradedFile = b.degradedFile
  radius : a.searchWindowRadius = b.searchWindowRadius

theorem SameComparisons.compute {a b : CliArgs} (h : SameComparisons a b) (p : Profile) (world : World F) (csv : String → CsvContent) :
    cliCompute p world csv a = cliCompute p world csv b := by
  unfold cliCompute buildFilePairPaths
  rw [h.variant, h.batch, h.reference, h.degraded, h.radius]

theorem console_scores (v : Bool) (l : List (SimilarityResult F × PathPair)) :
    (l.flatMap fun x => writeToConsole v x.1 x.2).filterMap (fun | .mosLine v => some v | _ => none) = l.map fun x => x.1.moslqo := by
  induction l with
  | nil => rfl
  | cons x l ih =>
    rw [List.flatMap_cons, List.filterMap_append, ih]
    cases v <;> simp [writeToConsole]

theorem console_no_csv (v : Bool) (l : List (SimilarityResult F × PathPair)) :
    (l.flatMap fun x => writeToConsole v x.1 x.2).filterMap (fun | .csvFile _ r => some r | _ => none) = [] := by
  induction l with
  | nil => rfl
  | cons x l ih =>
    rw [List.flatMap_cons, List.filterMap_append, ih]
    cases v <;> simp [writeToConsole]

theorem console_no_json (v : Bool) (l : List (SimilarityResult F × PathPair)) :
    (l.flatMap fun x => writeToConsole v x.1 x.2).filterMap (fun | .jsonFile _ r => some r | _ => none) = [] := by
  induction l with
  | nil => rfl
  | cons x l ih =>
    rw [List.flatMap_cons, List.filterMap_append, ih]
    cases v <;> simp [writeToConsole]

/-- Everything a run does, by cases: the comparisons fail; or a requested output file cannot be completed; or all is well. -/
theorem cliMain_cases (p : Profile) (world : World F) (csv : String → CsvContent) (wr : String → Bool) (a : CliArgs) :
    (∃ e, cliCompute p world csv a = .error e ∧ cliMain p world csv wr a = ([], .error e)) ∨
    ∃ pairs rs, cliCompute p world csv a = .ok (pairs, rs) ∧
      ((((∃ path, a.outputDebug = some path ∧ wr path = false) ∨
          ∃ path, a.resultsCsv = some path ∧ (wr path = false ∨ (acceptedRecords (rs.map SimilarityResult.fields)).length ≠ rs.length)) ∧
        (cliMain p world csv wr a).2 = .error (.panic .expect) ∧ printedScores (cliMain p world csv wr a) = []) ∨
      ((∀ path, a.outputDebug = some path → wr path = true) ∧ (∀ path, a.resultsCsv = some path → wr path = true) ∧
        (cliMain p world csv wr a).2 = .ok () ∧
        printedScores (cliMain p world csv wr a) = (rs.zip pairs).map (fun x => x.1.moslqo) ∧
        writtenCsv (cliMain p world csv wr a) = (a.resultsCsv.map fun _ => rs.map SimilarityResult.fields).toList ∧
        writtenJson (cliMain p world csv wr a) = (a.outputDebug.map fun _ => debugJson rs).toList)) := by
  cases hc : cliCompute p world csv a with
  | error e => exact .inl ⟨e, rfl, by simp only [cliMain, hc]⟩
  | ok x =>
    obtain ⟨pairs, rs⟩ := x
    refine .inr ⟨pairs, rs, rfl, ?_⟩
    have hm : cliMain p world csv wr a = writeResults wr a rs pairs := by simp only [cliMain, hc]
    rw [hm]
    have hlen : (rs.map SimilarityResult.fields).length = rs.length := List.length_map _
    unfold writeResults writeDebugJson writeResultsToCsv
    dsimp only
    rw [hlen]
    cases hd : a.outputDebug with
    | none =>
      cases hr : a.resultsCsv with
      | none =>
        refine .inr ⟨by simp, by simp, rfl, ?_, ?_, ?_⟩
        · simpa [printedScores, Trace.andThen, optTrace] using console_scores a.verbose (rs.zip pairs)
        · simpa [writtenCsv, Trace.andThen, optTrace] using console_no_csv a.verbose (rs.zip pairs)
        · simpa [writtenJson, Trace.andThen, optTrace] using console_no_json a.verbose (rs.zip pairs)
      | some path =>
        by_cases hw : wr path = true
        · by_cases hl : (acceptedRecords (rs.map SimilarityResult.fields)).length = rs.length
          · refine .inr ⟨by simp, by simpa using hw, by simp [Trace.andThen, optTrace, hw, hl], ?_, ?_, ?_⟩
            · simpa [printedScores, Trace.andThen, optTrace, hw, hl] using console_scores a.verbose (rs.zip pairs)
            · simpa [writtenCsv, Trace.andThen, optTrace, hw, hl] using console_no_csv a.verbose (rs.zip pairs)
            · simpa [writtenJson, Trace.andThen, optTrace, hw, hl] using console_no_json a.verbose (rs.zip pairs)
          · exact .inl ⟨.inr ⟨path, rfl, .inr hl⟩, by simp [Trace.andThen, optTrace, hw, hl], by simp [printedScores, Trace.andThen, optTrace, hw, hl]⟩
        · exact .inl ⟨.inr ⟨path, rfl, .inl (by simpa using hw)⟩, by simp [Trace.andThen, optTrace, hw], by simp [printedScores, Trace.andThen, optTrace, hw]⟩
    | some q =>
      by_cases hq : wr q = true
      · cases hr : a.resultsCsv with
        | none =>
          refine .inr ⟨by simpa using hq, by simp, by simp [Trace.andThen, optTrace, hq], ?_, ?_, ?_⟩
          · simpa [printedScores, Trace.andThen, optTrace, hq] using console_scores a.verbose (rs.zip pairs)
          · simpa [writtenCsv, Trace.andThen, optTrace, hq] using console_no_csv a.verbose (rs.zip pairs)
          · simpa [writtenJson, Trace.andThen, optTrace, hq] using console_no_json a.verbose (rs.zip pairs)
        | some path =>
          by_cases hw : wr path = true
          · by_cases hl : (acceptedRecords (rs.map SimilarityResult.fields)).length = rs.length
            · refine .inr ⟨by simpa using hq, by simpa using hw, by simp [Trace.andThen, optTrace, hw, hl, hq], ?_, ?_, ?_⟩
              · simpa [printedScores, Trace.andThen, optTrace, hw, hl, hq] using console_scores a.verbose (rs.zip pairs)
              · simpa [writtenCsv, Trace.andThen, optTrace, hw, hl, hq] using console_no_csv a.verbose (rs.zip pairs)
              · simpa [writtenJson, Trace.andThen, optTrace, hw, hl, hq] using console_no_json a.verbose (rs.zip pairs)
            · exact .inl ⟨.inr ⟨path, rfl, .inr hl⟩, by simp [Trace.andThen, optTrace, hw, hl, hq], by simp [printedScores, Trace.andThen, optTrace, hw, hl, hq]⟩
          · exact .inl ⟨.inr ⟨path, rfl, .inl (by simpa using hw)⟩, by simp [Trace.andThen, optTrace, hw, hq], by simp [printedScores, Trace.andThen, optTrace, hw, hq]⟩
      · exact .inl ⟨.inl ⟨q, rfl, by simpa using hq⟩, by simp [Trace.andThen, optTrace, hq], by simp [printedScores, Trace.andThen, optTrace, hq]⟩

/-- C82: two runs of the same comparisons that both end normally print the same scores, and, where both write a results CSV file or a
debug file, the same content. -/
theorem C82_same_scores {p : Profile} {world : World F} {csv : String → CsvContent} {wr : String → Bool} {a b : CliArgs} (h : SameComparisons a b)
    (ha : (cliMain p world csv wr a).2 = .ok ()) (hb : (cliMain p world csv wr b).2 = .ok ()) :
    printedScores (cliMain p world csv wr a) = printedScores (cliMain p world csv wr b) ∧
    (a.resultsCsv.isSome = b.resultsCsv.isSome → writtenCsv (cliMain p world csv wr a) = writtenCsv (cliMain p world csv wr b)) ∧
    (a.outputDebug.isSome = b.outputDebug.isSome → writtenJson (cliMain p world csv wr a) = writtenJson (cliMain p world csv wr b)) := by
  rcases cliMain_cases p world csv wr a with ⟨e, _, h2⟩ | ⟨pairs, rs, h1, h2⟩
  · rw [h2] at ha; cases ha
  · rcases h2 with ⟨_, h2, _⟩ | ⟨_, _, _, a4, a5, a6⟩
    · rw [h2] at ha; cases ha
    · rcases cliMain_cases p world csv wr b with ⟨e, _, h2⟩ | ⟨pairs', rs', h1', h2⟩
      · rw [h2] at hb; cases hb
      · rcases h2 with ⟨_, h2, _⟩ | ⟨_, _, _, b4, b5, b6⟩
        · rw [h2] at hb; cases hb
        · rw [h.compute p world csv, h1'] at h1
          cases h1
          rw [a4, b4, a5, b5, a6, b6]
          refine ⟨rfl, fun h => ?_, fun h => ?_⟩
          · cases ha : a.resultsCsv <;> cases hb : b.resultsCsv <;> simp [ha, hb] at h ⊢
          · cases ha : a.outputDebug <;> cases hb : b.outputDebug <;> simp [ha, hb] at h ⊢

/-- C82: without output files a run ends normally exactly if the comparisons succeed; asking for verbose output or for output files then
adds no failure other than an output file that cannot be completed, in which case no score at all is printed. -/
theorem C82_extra_failures {p : Profile} {world : World F} {csv : String → CsvContent} {wr : String → Bool} {a b : CliArgs}
    (h : SameComparisons a b) (ha : (cliMain p world csv wr a).2 = .ok ()) :
    (cliMain p world csv wr b).2 = .ok () ∨
    ((cliMain p world csv wr b).2 = .error (.panic .expect) ∧ printedScores (cliMain p world csv wr b) = [] ∧
      ((∃ path, b.outputDebug = some path ∧ wr path = false) ∨ ∃ path, b.resultsCsv = some path ∧ (wr path = false ∨
        ∃ pairs rs, cliCompute p world csv b = .ok (pairs, rs) ∧
          ∃ r ∈ rs, ∃ r' ∈ rs, r.patchSims.length ≠ r'.patchSims.length))) := by
  rcases cliMain_cases p world csv wr b with ⟨e, h1, h2⟩ | ⟨pairs, rs, h1, h2⟩
  · rw [← h.compute p world csv] at h1
    rw [cliMain, h1] at ha
    cases ha
  · rcases h2 with ⟨h2, h3, h4⟩ | ⟨_, _, h3, _⟩
    · refine .inr ⟨h3, h4, ?_⟩
      rcases h2 with h2 | ⟨path, h5, h6 | h6⟩
      · exact .inl h2
      · exact .inr ⟨path, h5, .inl h6⟩
      · refine .inr ⟨path, h5, .inr ⟨pairs, rs, h1, ?_⟩⟩
        by_contra hall
        push Not at hall
        apply h6
        obtain ⟨pairs', m, rs', b1, b2, b3, _⟩ := C15_ok_only ha
        have b4 := (C15_batch_ok (wr := wr) b1 b2 b3).1
        rw [h.compute p world csv, h1] at b4
        cases b4
        rw [← List.length_map (f := SimilarityResult.fields), acceptedRecords_all]
        intro x hx y hy
        obtain ⟨r, hr, rfl⟩ := List.mem_map.mp hx
        obtain ⟨r', hr', rfl⟩ := List.mem_map.mp hy
        rw [b3.fields_length r hr, b3.fields_length r' hr', hall r hr r' hr']
    · exact .inl h3

/-- C82: if a run without output files fails, the same run with any output options fails in the same way, before it prints or writes
anything. -/
theorem C82_same_failure {p : Profile} {world : World F} {csv : String → CsvContent} {wr : String → Bool} {a b : CliArgs}
    (h : SameComparisons a b) (hd : a.outputDebug = none) (hr : a.resultsCsv = none) {e : Fail}
    (ha : (cliMain p world csv wr a).2 = .error e) : cliMain p world csv wr b = ([], .error e) := by
  rcases cliMain_cases p world csv wr a with ⟨e', h1, h2⟩ | ⟨pairs, rs, h1, h2⟩
  · rw [h2] at ha
    cases ha
    rw [h.compute p world csv] at h1
    rw [cliMain, h1]
  · rcases h2 with ⟨h2, _⟩ | ⟨_, _, h3, _⟩
    · rcases h2 with ⟨q, h2, _⟩ | ⟨q, h2, _⟩
      · rw [hd] at h2; cases h2
      · rw [hr] at h2; cases h2
    · rw [h3] at ha; cases ha

/-- The hypotheses: two equal comparisons with both output files, and the same verbosely without them; both end normally. -/
example (p : Profile) : SameComparisons demoArgs { demoArgs with verbose := true, resultsCsv := none, outputDebug := none } ∧
    (cliMain p demoWorld (demoCsv "ref.wav" "ref.wav" "ref.wav" "ref.wav") (fun _ => true) demoArgs).2 = .ok () ∧
    (cliMain p demoWorld (demoCsv "ref.wav" "ref.wav" "ref.wav" "ref.wav") (fun _ => true)
      { demoArgs with verbose := true, resultsCsv := none, outputDebug := none }).2 = .ok () := by
  have hsame : SameComparisons demoArgs { demoArgs with verbose := true, resultsCsv := none, outputDebug := none } := ⟨rfl, rfl, rfl, rfl, rfl⟩
  obtain ⟨_, m', res, h⟩ := fullband_run p (le_refl 40000) (by omega) (le_refl 40000) (by omega) demo_i16.1 demo_i16.1
    demo_ref demo_ref (path := "model.txt") rfl (m := demoManager) demo_new
  have he : EachAlone p demoWorld demoManager [⟨"ref.wav", "ref.wav"⟩, ⟨"ref.wav", "ref.wav"⟩] [res, res] := by
    unfold EachAlone
    refine .cons ⟨m', ?_⟩ (.cons ⟨m', ?_⟩ .nil)
    · exact h
    · exact h
  have hs : ∀ x ∈ [res, res], ∀ y ∈ [res, res], x.patchSims.length = y.patchSims.length := by
    intro x hx y hy
    simp only [List.mem_cons, List.not_mem_nil, or_false, or_self] at hx hy
    rw [hx, hy]
  have hp := demo_pairs "ref.wav" "ref.wav" "ref.wav" "ref.wav"
  have hm := demo_new
  generalize demoWorld = world at *
  generalize demoManager = m at *
  have h1 := (C58_csv_patch_counts (wr := fun _ => true) hp hm he (path := "out.csv") rfl (fun _ => rfl)).2 hs
  refine ⟨hsame, h1, ?_⟩
  rcases C82_extra_failures hsame h1 with h2 | ⟨_, _, ⟨q, h2, _⟩ | ⟨q, h2, _⟩⟩
  · exact h2
  · cases h2
  · cases h2

/-- The hypotheses of `C82_same_failure`: a reference that does not exist. -/
example (p : Profile) : (cliMain (F := ℝ) p ⟨fun _ => .unreadable, fun _ => none⟩ (fun _ => none) (fun _ => true)
    ⟨.wideband false, none, some "a.wav", some "b.wav", none, false, none, 60⟩).2 = .error .external := rfl

end Visqol
