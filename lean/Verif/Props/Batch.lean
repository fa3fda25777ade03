import Verif.Props.Cli
import Verif.Props.Witness
import Verif.Spec.Disk

/-! # Order and grouping of a batch (C90), files left behind (C91) -/

set_option linter.unusedSectionVars false

namespace Visqol
variable {F : Type} [Flt F] [RustFft F]

/-! ## C90 -/

theorem cliCompute_ok {p : Profile} {world : World F} {csv : String → CsvContent} {a : CliArgs} {pairs : List PathPair}
    {rs : List (SimilarityResult F)} (h : cliCompute p world csv a = .ok (pairs, rs)) :
    ∃ m, buildFilePairPaths csv a = .ok pairs ∧
      Manager.new world a.variant.numBands a.variant a.searchWindowRadius = .ok m ∧ EachAlone p world m pairs rs := by
  cases hp : buildFilePairPaths csv a with
  | error e => simp [cliCompute, hp] at h
  | ok pairs' =>
    cases hm : Manager.new world a.variant.numBands a.variant a.searchWindowRadius with
    | error e => simp [cliCompute, hp, hm] at h
    | ok m =>
      rcases C15_cases p world m pairs' with ⟨rs', hr⟩ | ⟨pre, q, post, rs', e, h1, h2, h3⟩
      · have := (C15_batch_ok (wr := fun _ => true) hp hm hr).1
        rw [this] at h
        injection h with h
        injection h with h1 h2
        subst h1 h2
        exact ⟨m, rfl, rfl, hr⟩
      · simp only [cliCompute, hp, hm, ok_bind, h1, runBatch_error h3 (Manager.Sim.refl m) h2, error_bind] at h
        cases h

/-- C90: the score of a pair does not depend on the batch it is part of.  For the pairs of a successful run there is one
result per pair such that every other run with the same subcommand and search radius whose pairs are among them - fewer,
reordered, repeated, given by another batch file or by the file options, with any output options - succeeds and computes
exactly these results. -/
theorem C90_one_result {p : Profile} {world : World F} {csv : String → CsvContent} {a : CliArgs} {pairs : List PathPair}
    {rs : List (SimilarityResult F)} (h : cliCompute p world csv a = .ok (pairs, rs)) :
    ∃ score : PathPair → SimilarityResult F, rs = pairs.map score ∧
      ∀ (csv' : String → CsvContent) (a' : CliArgs) (pairs' : List PathPair), a'.variant = a.variant →
        a'.searchWindowRadius = a.searchWindowRadius → buildFilePairPaths csv' a' = .ok pairs' → (∀ q ∈ pairs', q ∈ pairs) →
        cliCompute p world csv' a' = .ok (pairs', pairs'.map score) := by
  obtain ⟨m, hp, hm, hr⟩ := cliCompute_ok h
  have hall : ∀ q ∈ pairs, ∃ x, m.run p world q.reference q.degraded = .ok x := by
    intro q hq
    clear hp h
    induction hr with
    | nil => simp at hq
    | cons h1 _ ih =>
      rcases List.mem_cons.mp hq with rfl | hq
      · obtain ⟨m', h1⟩ := h1
        exact ⟨_, h1⟩
      · exact ih hq
  let score : PathPair → SimilarityResult F := fun q =>
    match m.run p world q.reference q.degraded with
    | .ok x => x.2
    | .error _ => ⟨0.0, 0.0, [], [], [], [], []⟩
  have hs : ∀ l : List PathPair, (∀ q ∈ l, q ∈ pairs) → EachAlone p world m l (l.map score) := by
    intro l
    induction l with
    | nil => intro _; exact .nil
    | cons q l ih =>
      intro hl
      refine .cons ?_ (ih fun x hx => hl x (by simp [hx]))
      obtain ⟨x, hx⟩ := hall q (hl q (by simp))
      exact ⟨x.1, by simp only [score, hx]⟩
  refine ⟨score, ?_, fun csv' a' pairs' hv hrad hp' hsub => ?_⟩
  · have h1 := (C15_batch_ok (wr := fun _ => true) hp hm (hs pairs fun _ h => h)).1
    rw [h] at h1
    injection h1 with h1
    injection h1
  · exact (C15_batch_ok (wr := fun _ => true) hp' (by rw [hv, hrad]; exact hm) (hs pairs' hsub)).1

/-- C90, the other direction: if a run fails although its file list can be read and the manager can be built, then one of
its pairs makes every run with that pair fail, with the same subcommand and search radius. -/
theorem C90_bad_pair {p : Profile} {world : World F} {csv : String → CsvContent} {a : CliArgs} {pairs : List PathPair}
    {m : Manager F} {e : Fail} (hp : buildFilePairPaths csv a = .ok pairs)
    (hm : Manager.new world a.variant.numBands a.variant a.searchWindowRadius = .ok m)
    (h : cliCompute p world csv a = .error e) :
    ∃ q ∈ pairs, ∀ (csv' : String → CsvContent) (a' : CliArgs) (pairs' : List PathPair), a'.variant = a.variant →
      a'.searchWindowRadius = a.searchWindowRadius → buildFilePairPaths csv' a' = .ok pairs' → q ∈ pairs' →
      ∃ e', cliCompute p world csv' a' = .error e' := by
  rcases C15_cases p world m pairs with ⟨rs, hr⟩ | ⟨pre, q, post, rs, e', h1, h2, h3⟩
  · rw [(C15_batch_ok (wr := fun _ => true) hp hm hr).1] at h; cases h
  · refine ⟨q, by rw [h1]; simp, fun csv' a' pairs' hv hrad hp' hq => ?_⟩
    cases hc : cliCompute p world csv' a' with
    | error e'' => exact ⟨e'', rfl⟩
    | ok x =>
      exfalso
      obtain ⟨m', hp'', hm', hr'⟩ := cliCompute_ok (pairs := x.1) (rs := x.2) hc
      rw [hv, hrad, hm] at hm'
      injection hm' with hm'
      subst hm'
      rw [hp'] at hp''
      injection hp'' with hp''
      rw [← hp''] at hr'
      obtain ⟨n, hn⟩ := List.mem_iff_getElem.mp hq
      obtain ⟨hn, hg⟩ := hn
      have := List.Forall₂.get hr' (i := n) hn (by rw [← hr'.length]; exact hn)
      obtain ⟨m'', h4⟩ := this
      simp only [List.get_eq_getElem, hg] at h4
      rw [h3] at h4
      cases h4

/-! ## C91 -/

theorem writes_console (v : Bool) (l : List (SimilarityResult F × PathPair)) :
    (l.flatMap fun x => writeToConsole v x.1 x.2).filterMap Effect.writes = [] := by
  induction l with
  | nil => rfl
  | cons x l ih =>
    rw [List.flatMap_cons, List.filterMap_append, ih]; cases v <;> rfl

/-- All writes of `write_results`, in order. -/
theorem writes_writeResults (wr : String → Bool) (a : CliArgs) (rs : List (SimilarityResult F)) (pairs : List PathPair) :
    (writeResults wr a rs pairs).1.filterMap Effect.writes =
      match a.outputDebug, a.resultsCsv with
      | none, none => []
      | some j, none => if wr j then [(j, .json rs.getLast?)] else []
      | none, some c =>
        if wr c then
          if (acceptedRecords (rs.map SimilarityResult.fields)).length = rs.length then [(c, .table (rs.map SimilarityResult.fields))]
          else [(c, .broken (acceptedRecords (rs.map SimilarityResult.fields)))]
        else []
      | some j, some c =>
        if wr j then
          if wr c then
            if (acceptedRecords (rs.map SimilarityResult.fields)).length = rs.length then
              [(j, .json rs.getLast?), (c, .table (rs.map SimilarityResult.fields))]
            else [(j, .json rs.getLast?), (c, .broken (acceptedRecords (rs.map SimilarityResult.fields)))]
          else [(j, .json rs.getLast?)]
        else [] := by
  have hc := writes_console a.verbose (rs.zip pairs)
  unfold writeResults writeDebugJson writeResultsToCsv
  rw [debugJson_eq]
  generalize ((rs.zip pairs).flatMap fun x => writeToConsole a.verbose x.1 x.2) = tail at hc ⊢
  simp only [List.length_map]
  cases hj : a.outputDebug with
  | none =>
    cases hr : a.resultsCsv with
    | none => simp [Trace.andThen, optTrace, hc, List.filterMap_cons, Effect.writes]
    | some c =>
      by_cases h2 : wr c
      · by_cases h3 : (acceptedRecords (rs.map SimilarityResult.fields)).length = rs.length <;>
          simp [Trace.andThen, optTrace, h2, h3, hc, List.filterMap_cons, Effect.writes]
      · simp [Trace.andThen, optTrace, h2, List.filterMap_cons, Effect.writes]
  | some j =>
    by_cases h1 : wr j
    · cases hr : a.resultsCsv with
      | none => simp [Trace.andThen, optTrace, h1, hc, List.filterMap_cons, Effect.writes]
      | some c =>
        by_cases h2 : wr c
        · by_cases h3 : (acceptedRecords (rs.map SimilarityResult.fields)).length = rs.length <;>
            simp [Trace.andThen, optTrace, h1, h2, h3, hc, List.filterMap_cons, Effect.writes]
        · simp [Trace.andThen, optTrace, h1, h2, List.filterMap_cons, Effect.writes]
    · cases hr : a.resultsCsv <;> simp [Trace.andThen, optTrace, h1, List.filterMap_cons, Effect.writes]

/-- C91: however the tool ends, it changes no file other than those named by `--output_debug` and `--results_csv`. -/
theorem C91_only_named (p : Profile) (world : World F) (csv : String → CsvContent) (wr : String → Bool) (a : CliArgs)
    (path : String) (h1 : a.outputDebug ≠ some path) (h2 : a.resultsCsv ≠ some path) :
    holds (cliMain p world csv wr a).1 path = .untouched := by
  unfold cliMain
  cases cliCompute p world csv a with
  | error e => rfl
  | ok x =>
    simp only [holds, writes_writeResults]
    cases hj : a.outputDebug <;> cases hc : a.resultsCsv <;> rw [hj] at h1 <;> rw [hc] at h2 <;> dsimp only <;>
      (repeat' split) <;> simp_all

/-- C91: if the comparisons do not all succeed, no file is changed at all. -/
theorem C91_failed {p : Profile} {world : World F} {csv : String → CsvContent} {wr : String → Bool} {a : CliArgs} {e : Fail}
    (h : cliCompute p world csv a = .error e) (path : String) : holds (cliMain p world csv wr a).1 path = .untouched := by
  unfold cliMain
  rw [h]
  rfl

/-- C91: when the tool ends normally, the file of `--results_csv` holds one record per pair, in order, and the file of
`--output_debug` the last result, unless both options name the same file: then the results are in it and the debug output is
lost. -/
theorem C91_contents {p : Profile} {world : World F} {csv : String → CsvContent} {wr : String → Bool} {a : CliArgs}
    (h : (cliMain p world csv wr a).2 = .ok ()) : ∃ pairs rs, cliCompute p world csv a = .ok (pairs, rs) ∧
    (∀ path, a.resultsCsv = some path → holds (cliMain p world csv wr a).1 path = .table (rs.map SimilarityResult.fields)) ∧
    (∀ path, a.outputDebug = some path → a.resultsCsv ≠ some path →
      holds (cliMain p world csv wr a).1 path = .json rs.getLast?) := by
  obtain ⟨pairs, m, rs, hp, hm, hr, ht⟩ := C15_ok_only h
  refine ⟨pairs, rs, (C15_batch_ok (wr := wr) hp hm hr).1, ?_⟩
  rw [ht] at h ⊢
  have hw := writeResults_ok h
  have hc := writes_console a.verbose (rs.zip pairs)
  unfold holds
  rw [hw]
  simp only [List.filterMap_append, hc]
  constructor
  · intro path h1
    rw [h1]
    cases hj : a.outputDebug with
    | none => simp [Effect.writes]
    | some j => by_cases e : j = path <;> simp [Effect.writes, e]
  · intro path h1 h2
    rw [h1]
    cases hj : a.resultsCsv with
    | none => simp [Effect.writes]
    | some c =>
      have e : c ≠ path := fun e => h2 (by rw [hj, e])
      simp [Effect.writes, e]

/-- C91: when the comparisons succeed but an output file cannot be written, the tool panics; the debug file is written
first, so nothing is written if that fails, and it stays if only the results file fails.  No score is printed either way. -/
theorem C91_unwritable {p : Profile} {world : World F} {csv : String → CsvContent} {wr : String → Bool} {a : CliArgs}
    {pairs : List PathPair} {rs : List (SimilarityResult F)} (h : cliCompute p world csv a = .ok (pairs, rs)) :
    (∀ j, a.outputDebug = some j → wr j = false → (cliMain p world csv wr a).2 = .error (.panic .expect) ∧
      mosLines (cliMain p world csv wr a).1 = [] ∧ ∀ path, holds (cliMain p world csv wr a).1 path = .untouched) ∧
    (∀ c, a.resultsCsv = some c → wr c = false → (cliMain p world csv wr a).2 = .error (.panic .expect) ∧
      mosLines (cliMain p world csv wr a).1 = [] ∧ holds (cliMain p world csv wr a).1 c = .untouched ∧
      ∀ j, a.outputDebug = some j → wr j = true → holds (cliMain p world csv wr a).1 j = .json rs.getLast?) := by
  have ht : cliMain p world csv wr a = writeResults wr a rs pairs := by unfold cliMain; rw [h]
  rw [ht]
  constructor
  · intro j hj hw
    refine ⟨?_, ?_, fun path => ?_⟩
    · simp [writeResults, writeDebugJson, hj, hw, optTrace, Trace.andThen]
    · simp [writeResults, writeDebugJson, hj, hw, optTrace, Trace.andThen, mosLines]
    · simp only [holds, writes_writeResults, hj]
      cases a.resultsCsv <;> simp [hw]
  · intro c hc hw
    refine ⟨?_, ?_, ?_, fun j hj hwj => ?_⟩
    · simp only [writeResults, writeDebugJson, writeResultsToCsv, hc, hw, optTrace]
      cases a.outputDebug with
      | none => simp [Trace.andThen]
      | some j => by_cases e : wr j <;> simp [Trace.andThen, e]
    · simp only [writeResults, writeDebugJson, writeResultsToCsv, hc, hw, optTrace]
      cases a.outputDebug with
      | none => simp [Trace.andThen, mosLines]
      | some j => by_cases e : wr j <;> simp [Trace.andThen, e, mosLines]
    · simp only [holds, writes_writeResults, hc]
      cases hj : a.outputDebug with
      | none => simp [hw]
      | some j =>
        by_cases e : wr j
        · have : j ≠ c := fun e' => by rw [e', hw] at e; cases e
          simp [hw, e, this]
        · simp [e]
    · simp only [holds, writes_writeResults, hc, hj]
      simp [hw, hwj]

theorem takeWhile_split {α : Type} (q : α → Bool) : ∀ l : List α, (∃ x ∈ l, q x = false) →
    ∃ k, ∃ h : k < l.length, l.takeWhile q = l.take k ∧ (∀ x ∈ l.take k, q x = true) ∧ q l[k] = false
  | [], h => by simp at h
  | a :: l, h => by
    cases ha : q a with
    | false => exact ⟨0, by simp, by simp [ha], by simp, by simpa using ha⟩
    | true =>
      obtain ⟨x, hx, hq⟩ := h
      rcases List.mem_cons.mp hx with rfl | hx
      · rw [ha] at hq; cases hq
      · obtain ⟨k, hk, h1, h2, h3⟩ := takeWhile_split q l ⟨x, hx, hq⟩
        refine ⟨k + 1, by simpa using hk, by simp [ha, h1], ?_, by simpa using h3⟩
        intro y hy
        rw [List.take_succ_cons] at hy
        rcases List.mem_cons.mp hy with rfl | hy
        · exact ha
        · exact h2 y hy

/-- C91: when the results do not all have the same number of patches, the results file ends up with the records of the
leading pairs that have the number of patches of the first one, followed by a fragment of the next record; a debug file
named differently is complete. -/
theorem C91_broken {p : Profile} {world : World F} {csv : String → CsvContent} {wr : String → Bool} {a : CliArgs}
    {pairs : List PathPair} {rs : List (SimilarityResult F)} (h : cliCompute p world csv a = .ok (pairs, rs)) {c : String}
    (hc : a.resultsCsv = some c) (hw : ∀ q, wr q = true)
    (hne : ∃ x ∈ rs, ∃ y ∈ rs, x.patchSims.length ≠ y.patchSims.length) :
    (∃ k, ∃ hk : k < rs.length, 0 < k ∧
      holds (cliMain p world csv wr a).1 c = .broken ((rs.take k).map SimilarityResult.fields) ∧
      (∀ x ∈ rs.take k, x.patchSims.length = (rs[0]'(by omega)).patchSims.length) ∧
      rs[k].patchSims.length ≠ (rs[0]'(by omega)).patchSims.length) ∧
    ∀ j, a.outputDebug = some j → j ≠ c → holds (cliMain p world csv wr a).1 j = .json rs.getLast? := by
  have ht : cliMain p world csv wr a = writeResults wr a rs pairs := by unfold cliMain; rw [h]
  obtain ⟨m, hp, hm, hr⟩ := cliCompute_ok h
  have hf := hr.fields_length
  have key : ∀ x ∈ rs, ∀ y ∈ rs, x.fields.length = y.fields.length ↔ x.patchSims.length = y.patchSims.length := by
    intro x hx y hy
    rw [hf x hx, hf y hy]
    constructor
    · intro e
      exact Nat.eq_of_mul_eq_mul_right (by omega : 0 < 3 * m.numBands + 5) (by omega)
    · intro e; rw [e]
  rw [ht]
  obtain ⟨x, hx, y, hy, hxy⟩ := hne
  have hn : ¬ (acceptedRecords (rs.map SimilarityResult.fields)).length = rs.length := by
    rw [← List.length_map (f := SimilarityResult.fields), acceptedRecords_all]
    intro e
    exact hxy ((key x hx y hy).mp (e _ (List.mem_map_of_mem hx) _ (List.mem_map_of_mem hy)))
  constructor
  · cases rs with
    | nil => simp at hx
    | cons r rest =>
      have hsome : ∃ z ∈ r :: rest, (fun z : SimilarityResult F => z.fields.length == r.fields.length) z = false := by
        by_contra hcon
        push Not at hcon
        have e : ∀ z ∈ r :: rest, z.fields.length = r.fields.length := fun z hz => by simpa using hcon z hz
        exact hxy ((key x hx y hy).mp ((e x hx).trans (e y hy).symm))
      obtain ⟨k, hk, h1, h2, h3⟩ := takeWhile_split _ _ hsome
      have hacc : acceptedRecords ((r :: rest).map SimilarityResult.fields) = ((r :: rest).take k).map SimilarityResult.fields := by
        rw [← h1]
        simp only [List.map_cons, acceptedRecords]
        rw [← List.map_cons, List.takeWhile_map]
        rfl
      have hk0 : 0 < k := by
        rcases Nat.eq_zero_or_pos k with rfl | hk0
        · simp at h3
        · exact hk0
      refine ⟨k, hk, hk0, ?_, fun z hz => ?_, fun e => ?_⟩
      · simp only [holds, writes_writeResults, hc]
        rw [hacc] at hn ⊢
        cases hj : a.outputDebug with
        | none => simp only [hw, if_true, if_neg hn]; simp
        | some j => simp only [hw, if_true, if_neg hn]; by_cases e : j = c <;> simp [e]
      · have := h2 z hz
        exact (key z (List.mem_of_mem_take hz) r (by simp)).mp (by simpa using this)
      · have := (key _ (List.getElem_mem hk) r (by simp)).mpr e
        simp [this] at h3
  · intro j hj hjc
    simp only [holds, writes_writeResults, hc, hj, hw, if_true, if_neg hn]
    simp [Ne.symm hjc]

/-! ## Examples -/

/-- The hypotheses of `C90_one_result` and `C91_contents`: a batch of two different comparisons, run in either order. -/
example (p : Profile) : ∃ rs rs', cliCompute p demoWorld (demoCsv "ref.wav" "ref.wav" "ref.wav" "deg.wav") demoArgs =
      .ok ([⟨"ref.wav", "ref.wav"⟩, ⟨"ref.wav", "deg.wav"⟩], rs) ∧
    cliCompute p demoWorld (demoCsv "ref.wav" "deg.wav" "ref.wav" "ref.wav") demoArgs =
      .ok ([⟨"ref.wav", "deg.wav"⟩, ⟨"ref.wav", "ref.wav"⟩], rs') ∧ rs' = rs.reverse := by
  obtain ⟨_, m', res, h⟩ := fullband_run p (le_refl 40000) (by omega) (le_refl 40000) (by omega) demo_i16.1 demo_i16.1
    demo_ref demo_ref (path := "model.txt") rfl (m := demoManager) demo_new
  obtain ⟨_, m₂', res₂, h₂⟩ := fullband_run p (le_refl 40000) (by omega) (by omega : 40000 ≤ 41000) (by omega) demo_i16.1 demo_i16.2
    demo_ref demo_deg (path := "model.txt") rfl (m := demoManager) demo_new
  have hp := demo_pairs "ref.wav" "ref.wav" "ref.wav" "deg.wav"
  have hp' := demo_pairs "ref.wav" "deg.wav" "ref.wav" "ref.wav"
  have hm := demo_new
  generalize demoWorld = world at *
  generalize demoManager = m at *
  have h1 := (C15_batch_ok (wr := fun _ => true) hp hm (rs := [res, res₂]) (.cons ⟨m', h⟩ (.cons ⟨m₂', h₂⟩ .nil))).1
  obtain ⟨score, e1, e2⟩ := C90_one_result h1
  refine ⟨_, _, h1, e2 _ demoArgs _ rfl rfl hp' (by simp), ?_⟩
  rw [e1]
  rfl

theorem demo_missing : demoWorld.wav "missing.wav" = .unreadable := by simp [demoWorld, -List.reduceReplicate]

theorem run_unreadable (p : Profile) (m : Manager F) {world : World F} {r : String} (h : world.wav r = .unreadable) (d : String) :
    m.run p world r d = .error .external := by
  unfold Manager.run
  rw [h]
  rfl

theorem cliCompute_error {p : Profile} {world : World F} {csv : String → CsvContent} {a : CliArgs}
    {pre post : List PathPair} {q : PathPair} {m : Manager F} {rs : List (SimilarityResult F)} {e : Fail}
    (hp : buildFilePairPaths csv a = .ok (pre ++ q :: post))
    (hm : Manager.new world a.variant.numBands a.variant a.searchWindowRadius = .ok m) (h : EachAlone p world m pre rs)
    (hq : m.run p world q.reference q.degraded = .error e) : cliCompute p world csv a = .error e := by
  simp only [cliCompute, hp, hm, ok_bind, runBatch_error hq (Manager.Sim.refl m) h, error_bind]

/-- The hypotheses of `C90_bad_pair` and `C91_failed`: one of two files cannot be read. -/
example (p : Profile) : buildFilePairPaths (demoCsv "ref.wav" "deg.wav" "missing.wav" "ref.wav") demoArgs =
      .ok [⟨"ref.wav", "deg.wav"⟩, ⟨"missing.wav", "ref.wav"⟩] ∧
    Manager.new demoWorld demoArgs.variant.numBands demoArgs.variant demoArgs.searchWindowRadius = .ok demoManager ∧
    cliCompute p demoWorld (demoCsv "ref.wav" "deg.wav" "missing.wav" "ref.wav") demoArgs = .error .external := by
  refine ⟨demo_pairs _ _ _ _, demo_new, ?_⟩
  obtain ⟨_, m', res, h⟩ := fullband_run p (le_refl 40000) (by omega) (by omega : 40000 ≤ 41000) (by omega) demo_i16.1 demo_i16.2
    demo_ref demo_deg (path := "model.txt") rfl (m := demoManager) demo_new
  have hq := run_unreadable p demoManager demo_missing "ref.wav"
  exact cliCompute_error (pre := [⟨"ref.wav", "deg.wav"⟩]) (post := []) (rs := [res]) (demo_pairs _ _ _ _) demo_new
    (.cons ⟨m', h⟩ .nil) hq

/-- The hypotheses of `C91_unwritable` and `C91_broken`: two files of different length, and a directory that cannot be written. -/
example (p : Profile) : ∃ rs, cliCompute p demoWorld (demoCsv "ref.wav" "ref.wav" "long.wav" "long.wav") demoArgs =
      .ok ([⟨"ref.wav", "ref.wav"⟩, ⟨"long.wav", "long.wav"⟩], rs) ∧
    (∃ x ∈ rs, ∃ y ∈ rs, x.patchSims.length ≠ y.patchSims.length) ∧ demoArgs.resultsCsv = some "out.csv" ∧
    (cliMain p demoWorld (demoCsv "ref.wav" "ref.wav" "long.wav" "long.wav") (fun q => q != "out.csv") demoArgs).2 =
      .error (.panic .expect) := by
  obtain ⟨_, m', res, h⟩ := fullband_run p (le_refl 40000) (by omega) (le_refl 40000) (by omega) demo_i16.1 demo_i16.1
    demo_ref demo_ref (path := "model.txt") rfl (m := demoManager) demo_new
  obtain ⟨_, m₂', res₂, h₂⟩ := fullband_run p (a := 80000) (by omega) (by omega) (le_refl 80000) (by omega) demo_i16.1 demo_i16.1
    demo_long demo_long (path := "model.txt") rfl (m := demoManager) demo_new
  have he : EachAlone p demoWorld demoManager [⟨"ref.wav", "ref.wav"⟩, ⟨"long.wav", "long.wav"⟩] [res, res₂] := by
    unfold EachAlone
    refine .cons ⟨m', ?_⟩ (.cons ⟨m₂', ?_⟩ .nil)
    · exact h
    · exact h₂
  have hne : ∃ x ∈ [res, res₂], ∃ y ∈ [res, res₂], x.patchSims.length ≠ y.patchSims.length := by
    refine ⟨res, by simp, res₂, by simp, fun heq => ?_⟩
    rw [C16_same_rate (ref := steadySignal 40000 20000) (deg := steadySignal 40000 20000) (demo_ref ▸ load_steady _ demo_i16.1)
      (demo_ref ▸ load_steady _ demo_i16.1) rfl] at h
    rw [C16_same_rate (ref := steadySignal 80000 20000) (deg := steadySignal 80000 20000) (demo_long ▸ load_steady _ demo_i16.1)
      (demo_long ▸ load_steady _ demo_i16.1) rfl] at h₂
    have a := steady_count rfl (by omega) (by omega) h 5
    have b := steady_count rfl (by omega) (by omega) h₂ 5
    rw [heq] at a
    omega
  have hp := demo_pairs "ref.wav" "ref.wav" "long.wav" "long.wav"
  have hm := demo_new
  clear h h₂
  generalize demoWorld = world at *
  generalize demoManager = m at *
  have hc := (C15_batch_ok (wr := fun _ => true) hp hm he).1
  exact ⟨_, hc, hne, rfl, ((C91_unwritable hc).2 "out.csv" rfl (by simp)).1⟩

end Visqol
