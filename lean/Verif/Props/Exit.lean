import Verif.Model.Exit
import Verif.Spec.Digits
import Verif.Props.Args
import Verif.Props.Batch
import Verif.Props.ErrorsExactly

/-! # C95: what an error says, and how the tool ends -/

namespace Visqol
open Spec

/-! ## The numbers in the texts -/

theorem numbersFrom_skip {t : List Char} (ht : t.all (fun c => !c.isDigit) = true) (l : List Char) :
    numbersFrom none (t ++ l) = numbersFrom none l := by
  induction t with
  | nil => rfl
  | cons c t ih =>
    simp only [List.all_cons, Bool.and_eq_true, Bool.not_eq_true'] at ht
    rw [List.cons_append, numbersFrom, if_neg (by simp [ht.1]), ih ht.2]
    rfl

theorem numbersFrom_digits {ds : List Char} (hd : ∀ c ∈ ds, c.isDigit = true) (n : Nat) (l : List Char) :
    numbersFrom (some n) (ds ++ l) = numbersFrom (some (ds.foldl (fun n c => 10 * n + (c.toNat - '0'.toNat)) n)) l := by
  induction ds generalizing n with
  | nil => rfl
  | cons c ds ih =>
    rw [List.cons_append, numbersFrom, if_pos (hd c (by simp)), List.foldl_cons]
    exact ih (fun c hc => hd c (by simp [hc])) _

theorem toString_toList (n : Nat) : (toString n).toList = Nat.toDigits 10 n := by
  show (Nat.repr n).toList = _
  simp [Nat.repr]

/-- A number followed by something that is not a digit. -/
theorem numbersFrom_number (n : Nat) {t : List Char} (ht : ∀ c ∈ t.head?, c.isDigit = false) :
    numbersFrom none ((toString n).toList ++ t) = n :: numbersFrom none t := by
  rw [toString_toList]
  have hd : ∀ c ∈ Nat.toDigits 10 n, c.isDigit = true := fun c hc => Nat.isDigit_of_mem_toDigits (by norm_num) (by norm_num) hc
  have hv : (Nat.toDigits 10 n).foldl (fun n c => 10 * n + (c.toNat - '0'.toNat)) 0 = n := by
    rw [← Nat.ofDigitChars_eq_foldl]
    exact Nat.ofDigitChars_ten_toDigits
  have hne : Nat.toDigits 10 n ≠ [] := Nat.toDigits_ne_nil
  generalize Nat.toDigits 10 n = ds at *
  have h : numbersFrom none (ds ++ t) = numbersFrom (some n) t := by
    cases ds with
    | nil => exact absurd rfl hne
    | cons c ds =>
      rw [List.cons_append, numbersFrom, if_pos (hd c (by simp))]
      rw [numbersFrom_digits (fun c hc => hd c (by simp [hc]))]
      rw [List.foldl_cons] at hv
      exact congrArg (fun x => numbersFrom (some x) t) hv
  rw [h]
  cases t with
  | nil => rfl
  | cons c t =>
    have := ht c (by simp)
    rw [numbersFrom, numbersFrom, if_neg (by simp [this]), if_neg (by simp [this])]
    rfl

/-- C95: the numbers of an error are the numbers in its two texts, in order (the text about the bit depth also mentions 16). -/
theorem C95_numbers :
    (∀ r d, numbersIn (VisqolError.differentSampleRates r d).display = [r, d] ∧ numbersIn (VisqolError.differentSampleRates r d).debug = [r, d]) ∧
    (∀ n k, numbersIn (VisqolError.tooFewSamples n k).display = [n, k] ∧ numbersIn (VisqolError.tooFewSamples n k).debug = [n, k]) ∧
    (∀ n k, numbersIn (VisqolError.referenceSpectrogramTooSmall n k).display = [n, k] ∧
      numbersIn (VisqolError.referenceSpectrogramTooSmall n k).debug = [n, k]) ∧
    (∀ b, numbersIn (VisqolError.invalidBitsPerSample b).display = [16, b] ∧ numbersIn (VisqolError.invalidBitsPerSample b).debug = [b]) ∧
    ∀ e : VisqolError, e = .signalsTooDifferent ∨ e = .failedToAlignSignals ∨ e = .failedToComputeVad →
      numbersIn e.display = [] ∧ numbersIn e.debug = [] := by
  have two : ∀ (a b c : String) (n k : Nat), a.toList.all (fun c => !c.isDigit) = true → b.toList.all (fun c => !c.isDigit) = true →
      c.toList.all (fun c => !c.isDigit) = true → b.toList ≠ [] → numbersFrom none (a ++ toString n ++ b ++ toString k ++ c).toList = [n, k] := by
    intro a b c n k ha hb hc hbn
    simp only [String.toList_append, List.append_assoc]
    have hh : ∀ {t l : List Char}, t.all (fun c => !c.isDigit) = true → t ≠ [] → ∀ c ∈ (t ++ l).head?, c.isDigit = false := by
      intro t l ht hn c hc
      cases t with
      | nil => exact absurd rfl hn
      | cons x t =>
        simp only [List.all_cons, Bool.and_eq_true, Bool.not_eq_true'] at ht
        simp only [List.cons_append, List.head?_cons, Option.mem_def, Option.some.injEq] at hc
        rw [← hc]; exact ht.1
    have hh' : ∀ c' ∈ c.toList.head?, c'.isDigit = false := by
      by_cases h : c.toList = []
      · rw [h]; intro c' hc'; simp at hc'
      · have := hh (l := []) hc h
        rwa [List.append_nil] at this
    rw [numbersFrom_skip ha, numbersFrom_number n (hh hb hbn), numbersFrom_skip hb, numbersFrom_number k hh']
    have := numbersFrom_skip hc []
    rw [List.append_nil] at this
    rw [this]; rfl
  have one : ∀ (a b : String) (n : Nat), a.toList.all (fun c => !c.isDigit) = true →
      b.toList.all (fun c => !c.isDigit) = true → numbersFrom none (a ++ toString n ++ b).toList = [n] := by
    intro a b n ha hb
    simp only [String.toList_append, List.append_assoc]
    rw [numbersFrom_skip ha, numbersFrom_number n, ]
    · have := numbersFrom_skip hb []
      rw [List.append_nil] at this
      rw [this]; rfl
    · intro c hc
      have := List.all_eq_true.mp hb c (List.mem_of_mem_head? hc)
      simpa using this
  refine ⟨fun r d => ⟨?_, ?_⟩, fun n k => ⟨?_, ?_⟩, fun n k => ⟨?_, ?_⟩, fun b => ⟨?_, ?_⟩, ?_⟩
  · exact two _ _ _ _ _ (by decide +kernel) (by decide +kernel) (by decide +kernel) (by decide +kernel)
  · exact two _ _ _ _ _ (by decide +kernel) (by decide +kernel) (by decide +kernel) (by decide +kernel)
  · have := two "Signal is too short! Found " " samples, minimum required is " "" n k (by decide +kernel) (by decide +kernel) (by decide +kernel) (by decide +kernel)
    rwa [String.append_empty] at this
  · exact two _ _ _ _ _ (by decide +kernel) (by decide +kernel) (by decide +kernel) (by decide +kernel)
  · have := two "reference spectrum size " " smaller than minimum " "" n k (by decide +kernel) (by decide +kernel) (by decide +kernel) (by decide +kernel)
    rwa [String.append_empty] at this
  · exact two _ _ _ _ _ (by decide +kernel) (by decide +kernel) (by decide +kernel) (by decide +kernel)
  · have := two "Visqol input files must be quantized to " " bit. Found " "!" 16 b (by decide +kernel) (by decide +kernel) (by decide +kernel) (by decide +kernel)
    exact this
  · exact one _ _ _ (by decide +kernel) (by decide +kernel)
  · have none_in : ∀ s : String, s.toList.all (fun c => !c.isDigit) = true → numbersIn s = [] := fun s hs => by
      have := numbersFrom_skip hs []
      rw [List.append_nil] at this
      exact this
    rintro e (rfl | rfl | rfl) <;> exact ⟨none_in _ (by decide +kernel), none_in _ (by decide +kernel)⟩

/-- The character at position 10 of each of the two texts. -/
def VisqolError.mark : VisqolError → Char × Char
  | .differentSampleRates _ _ => ('e', 'a')
  | .tooFewSamples _ _ => ('t', 'l')
  | .referenceSpectrogramTooSmall _ _ => ('s', 'p')
  | .signalsTooDifferent => ('i', 'D')
  | .failedToAlignSignals => ('a', 'i')
  | .failedToComputeVad => ('c', 'm')
  | .invalidBitsPerSample _ => ('u', 's')

theorem at_ten {a : String} {c : Char} (h : a.toList[10]? = some c) (b : String) : (a ++ b).toList[10]? = some c := by
  rw [String.toList_append, List.getElem?_append_left (List.getElem?_eq_some_iff.mp h).1, h]

theorem display_mark : ∀ e : VisqolError, e.display.toList[10]? = some e.mark.1
  | .differentSampleRates _ _ => at_ten (at_ten (at_ten (at_ten (by simp only [VisqolError.mark]; decide +kernel) _) _) _) _
  | .tooFewSamples _ _ => at_ten (at_ten (at_ten (by simp only [VisqolError.mark]; decide +kernel) _) _) _
  | .referenceSpectrogramTooSmall _ _ => at_ten (at_ten (at_ten (by simp only [VisqolError.mark]; decide +kernel) _) _) _
  | .signalsTooDifferent => by decide +kernel
  | .failedToAlignSignals => by decide +kernel
  | .failedToComputeVad => by decide +kernel
  | .invalidBitsPerSample _ => at_ten (at_ten (by simp only [VisqolError.mark]; decide +kernel) _) _

theorem debug_mark : ∀ e : VisqolError, e.debug.toList[10]? = some e.mark.2
  | .differentSampleRates _ _ => at_ten (at_ten (at_ten (at_ten (by simp only [VisqolError.mark]; decide +kernel) _) _) _) _
  | .tooFewSamples _ _ => at_ten (at_ten (at_ten (at_ten (by simp only [VisqolError.mark]; decide +kernel) _) _) _) _
  | .referenceSpectrogramTooSmall _ _ => at_ten (at_ten (at_ten (at_ten (by simp only [VisqolError.mark]; decide +kernel) _) _) _) _
  | .signalsTooDifferent => by decide +kernel
  | .failedToAlignSignals => by decide +kernel
  | .failedToComputeVad => by decide +kernel
  | .invalidBitsPerSample _ => at_ten (at_ten (by simp only [VisqolError.mark]; decide +kernel) _) _

theorem display_injective {e₁ e₂ : VisqolError} (h : e₁.display = e₂.display) : e₁ = e₂ := by
  obtain ⟨n1, n2, n3, n4, _⟩ := C95_numbers
  have ho : e₁.mark.1 = e₂.mark.1 := Option.some.inj (by rw [← display_mark, ← display_mark, h])
  have hn : numbersIn e₁.display = numbersIn e₂.display := by rw [h]
  clear h
  cases e₁ <;> cases e₂ <;> simp only [VisqolError.mark, Char.reduceEq] at ho <;> try rfl
  · rw [(n1 _ _).1, (n1 _ _).1] at hn; simp_all
  · rw [(n2 _ _).1, (n2 _ _).1] at hn; simp_all
  · rw [(n3 _ _).1, (n3 _ _).1] at hn; simp_all
  · rw [(n4 _).1, (n4 _).1] at hn; simp_all

theorem debug_injective {e₁ e₂ : VisqolError} (h : e₁.debug = e₂.debug) : e₁ = e₂ := by
  obtain ⟨n1, n2, n3, n4, _⟩ := C95_numbers
  have ho : e₁.mark.2 = e₂.mark.2 := Option.some.inj (by rw [← debug_mark, ← debug_mark, h])
  have hn : numbersIn e₁.debug = numbersIn e₂.debug := by rw [h]
  clear h
  cases e₁ <;> cases e₂ <;> simp only [VisqolError.mark, Char.reduceEq] at ho <;> try rfl
  · rw [(n1 _ _).2, (n1 _ _).2] at hn; simp_all
  · rw [(n2 _ _).2, (n2 _ _).2] at hn; simp_all
  · rw [(n3 _ _).2, (n3 _ _).2] at hn; simp_all
  · rw [(n4 _).2, (n4 _).2] at hn; simp_all

/-- C95: different errors have different texts, in both forms: the kind of the error and its numbers can be read off. -/
theorem C95_distinct (e₁ e₂ : VisqolError) : (e₁.display = e₂.display → e₁ = e₂) ∧ (e₁.debug = e₂.debug → e₁ = e₂) :=
  ⟨display_injective, debug_injective⟩

/-! ## The exit status -/

variable {F : Type} [Flt F] [RustFft F]

theorem readRecords_error {w : Nat} {e : Fail} : ∀ {rows : List (List String)}, readRecords w rows = .error e →
    e = .external ∨ e = .panic .expect
  | [], h => by cases h
  | row :: rest, h => by
    unfold readRecords at h
    split at h
    · cases h; exact .inl rfl
    split at h
    · rcases bind_error h with h | ⟨ps, _, h⟩
      · exact readRecords_error h
      · cases h
    · cases h; exact .inr rfl

theorem buildFilePairPaths_error {csv : String → CsvContent} {a : CliArgs} {e : Fail} (h : buildFilePairPaths csv a = .error e) :
    e = .external ∨ e = .panic .expect := by
  unfold buildFilePairPaths at h
  split at h
  · cases h
  split at h
  · unfold readFilesToCompare at h
    split at h
    · cases h; exact .inr rfl
    · cases h
    · exact readRecords_error h
  · cases h

theorem managerNew_error {world : World F} {nb sw : Nat} {v : Variant} {e : Fail} (h : Manager.new world nb v sw = .error e) :
    ∃ q, e = .panic q := by
  unfold Manager.new at h
  cases v with
  | wideband u => cases h
  | fullband path =>
    dsimp only at h
    cases hw : world.svr path with
    | none => rw [hw] at h; cases h; exact ⟨_, rfl⟩
    | some x => rw [hw] at h; cases h

theorem writeResults_end (wr : String → Bool) (a : CliArgs) (rs : List (SimilarityResult F)) (pairs : List PathPair) :
    (((writeResults wr a rs pairs).2 = .ok ()) ↔
      (∀ j, a.outputDebug = some j → wr j = true) ∧
      ∀ c, a.resultsCsv = some c → wr c = true ∧ (acceptedRecords (rs.map SimilarityResult.fields)).length = (rs.map SimilarityResult.fields).length) ∧
    ((writeResults wr a rs pairs).2 = .ok () ∨ (writeResults wr a rs pairs).2 = .error (.panic .expect)) := by
  unfold writeResults writeDebugJson writeResultsToCsv optTrace
  cases a.outputDebug with
  | none =>
    cases a.resultsCsv with
    | none => simp [Trace.andThen]
    | some c =>
      by_cases h1 : wr c = true <;>
      by_cases h2 : (acceptedRecords (rs.map SimilarityResult.fields)).length = (rs.map SimilarityResult.fields).length <;>
      simp [Trace.andThen, h1, h2] <;> simp_all
  | some j =>
    by_cases h0 : wr j = true
    · cases a.resultsCsv with
      | none => simp [Trace.andThen, h0]
      | some c =>
        by_cases h1 : wr c = true <;>
        by_cases h2 : (acceptedRecords (rs.map SimilarityResult.fields)).length = (rs.map SimilarityResult.fields).length <;>
        simp [Trace.andThen, h0, h1, h2] <;> simp_all
    · simp [Trace.andThen, h0]

/-- How `main` ends, given the arguments. -/
theorem cliMain_end (p : Profile) (world : World F) (csv : String → CsvContent) (wr : String → Bool) (a : CliArgs) :
    ((cliMain p world csv wr a).2 = .ok () ↔ ∃ pairs m rs, buildFilePairPaths csv a = .ok pairs ∧
      Manager.new world a.variant.numBands a.variant a.searchWindowRadius = .ok m ∧ EachAlone p world m pairs rs ∧
      (∀ j, a.outputDebug = some j → wr j = true) ∧
      ∀ c, a.resultsCsv = some c → wr c = true ∧ ∀ x ∈ rs, ∀ y ∈ rs, x.patchSims.length = y.patchSims.length) ∧
    (∀ e, (cliMain p world csv wr a).2 = .error (.err e) ↔ ∃ pre q post m rs, buildFilePairPaths csv a = .ok (pre ++ q :: post) ∧
      Manager.new world a.variant.numBands a.variant a.searchWindowRadius = .ok m ∧ EachAlone p world m pre rs ∧
      m.run p world q.reference q.degraded = .error (.err e)) ∧
    ((cliMain p world csv wr a).2 = .error .external ↔ buildFilePairPaths csv a = .error .external ∨
      ∃ pre q post m rs, buildFilePairPaths csv a = .ok (pre ++ q :: post) ∧
      Manager.new world a.variant.numBands a.variant a.searchWindowRadius = .ok m ∧ EachAlone p world m pre rs ∧
      m.run p world q.reference q.degraded = .error .external) := by
  have keyOf : ∀ {pairs : List PathPair} {m : Manager F} {rs : List (SimilarityResult F)}, EachAlone p world m pairs rs →
      ((acceptedRecords (rs.map SimilarityResult.fields)).length = (rs.map SimilarityResult.fields).length ↔
        ∀ x ∈ rs, ∀ y ∈ rs, x.patchSims.length = y.patchSims.length) := by
    intro pairs m rs hr
    have hf := hr.fields_length
    have key : ∀ x ∈ rs, ∀ y ∈ rs, x.fields.length = y.fields.length ↔ x.patchSims.length = y.patchSims.length := by
      intro x hx y hy
      rw [hf x hx, hf y hy]
      constructor
      · intro e
        exact Nat.eq_of_mul_eq_mul_right (by omega : 0 < 3 * m.numBands + 5) (by omega)
      · intro e; rw [e]
    rw [acceptedRecords_all]
    constructor
    · intro h x hx y hy
      exact (key x hx y hy).mp (h _ (List.mem_map_of_mem hx) _ (List.mem_map_of_mem hy))
    · intro h x hx y hy
      obtain ⟨x, hx', rfl⟩ := List.mem_map.mp hx
      obtain ⟨y, hy', rfl⟩ := List.mem_map.mp hy
      exact (key x hx' y hy').mpr (h x hx' y hy')
  have failed : ∀ e : Fail, (∃ pre q post m rs, buildFilePairPaths csv a = .ok (pre ++ q :: post) ∧
      Manager.new world a.variant.numBands a.variant a.searchWindowRadius = .ok m ∧ EachAlone p world m pre rs ∧
      m.run p world q.reference q.degraded = .error e) → (cliMain p world csv wr a).2 = .error e := by
    rintro e ⟨pre, q, post, m, rs, h1, h2, h3, h4⟩
    rw [C15_batch_fail h1 h2 h3 h4]
  -- the four ways
  have cases4 : (∃ e, buildFilePairPaths csv a = .error e ∧ (cliMain p world csv wr a).2 = .error e) ∨
      (∃ q, (cliMain p world csv wr a).2 = .error (.panic q)) ∨
      (∃ e, (∃ pre q post m rs, buildFilePairPaths csv a = .ok (pre ++ q :: post) ∧
        Manager.new world a.variant.numBands a.variant a.searchWindowRadius = .ok m ∧ EachAlone p world m pre rs ∧
        m.run p world q.reference q.degraded = .error e) ∧ (cliMain p world csv wr a).2 = .error e) ∨
      ∃ pairs m rs, buildFilePairPaths csv a = .ok pairs ∧
        Manager.new world a.variant.numBands a.variant a.searchWindowRadius = .ok m ∧ EachAlone p world m pairs rs ∧
        cliMain p world csv wr a = writeResults wr a rs pairs := by
    cases hp : buildFilePairPaths csv a with
    | error e => exact .inl ⟨e, rfl, by simp [cliMain, cliCompute, hp]⟩
    | ok pairs =>
      cases hm : Manager.new world a.variant.numBands a.variant a.searchWindowRadius with
      | error e =>
        obtain ⟨q, rfl⟩ := managerNew_error hm
        exact .inr (.inl ⟨q, by simp [cliMain, cliCompute, hp, hm]⟩)
      | ok m =>
        rcases C15_cases p world m pairs with ⟨rs, hr⟩ | ⟨pre, q, post, rs, e, h1, h2, h3⟩
        · exact .inr (.inr (.inr ⟨pairs, m, rs, rfl, rfl, hr, (C15_batch_ok hp hm hr).2⟩))
        · refine .inr (.inr (.inl ⟨e, ⟨pre, q, post, m, rs, by rw [h1], rfl, h2, h3⟩, ?_⟩))
          rw [C15_batch_fail (h1 ▸ hp) hm h2 h3]
  refine ⟨⟨fun h => ?_, ?_⟩, fun e => ⟨fun h => ?_, failed _⟩, fun h => ?_, ?_⟩
  · obtain ⟨pairs, m, rs, h1, h2, h3, h4⟩ := C15_ok_only h
    rw [h4, (writeResults_end wr a rs pairs).1] at h
    exact ⟨pairs, m, rs, h1, h2, h3, h.1, fun c hc => ⟨(h.2 c hc).1, (keyOf h3).mp (h.2 c hc).2⟩⟩
  · rintro ⟨pairs, m, rs, h1, h2, h3, h4, h5⟩
    rw [(C15_batch_ok (wr := wr) h1 h2 h3).2, (writeResults_end wr a rs pairs).1]
    exact ⟨h4, fun c hc => ⟨(h5 c hc).1, (keyOf h3).mpr (h5 c hc).2⟩⟩
  · rcases cases4 with ⟨e', h1, h2⟩ | ⟨q, h1⟩ | ⟨e', h1, h2⟩ | ⟨pairs, m, rs, _, _, _, h4⟩
    · rw [h] at h2; cases h2
      rcases buildFilePairPaths_error h1 with h | h <;> cases h
    · rw [h] at h1; cases h1
    · rw [h] at h2; cases h2; exact h1
    · rcases (writeResults_end wr a rs pairs).2 with h' | h' <;> rw [h4, h'] at h <;> cases h
  · rcases cases4 with ⟨e', h1, h2⟩ | ⟨q, h1⟩ | ⟨e', h1, h2⟩ | ⟨pairs, m, rs, _, _, _, h4⟩
    · rw [h] at h2; cases h2; exact .inl h1
    · rw [h] at h1; cases h1
    · rw [h] at h2; cases h2; exact .inr h1
    · rcases (writeResults_end wr a rs pairs).2 with h' | h' <;> rw [h4, h'] at h <;> cases h
  · rintro (h | h)
    · simp [cliMain, cliCompute, h]
    · exact failed _ h

/-- C95: the status is 0 exactly if the command line is accepted, the list of files can be read, the model can be loaded, every pair,
compared alone, yields a result, and the requested files can be written (the table of results only if all results have the same number
of patches). -/
theorem C95_success (p : Profile) (world : World F) (csv : String → CsvContent) (wr : String → Bool) (raw : RawArgs) :
    (tool p world csv wr raw).2.status = 0 ↔ ∃ a, parseArgs p raw = .ok a ∧ ∃ pairs m rs, buildFilePairPaths csv a = .ok pairs ∧
      Manager.new world a.variant.numBands a.variant a.searchWindowRadius = .ok m ∧ EachAlone p world m pairs rs ∧
      (∀ j, a.outputDebug = some j → wr j = true) ∧
      ∀ c, a.resultsCsv = some c → wr c = true ∧ ∀ x ∈ rs, ∀ y ∈ rs, x.patchSims.length = y.patchSims.length := by
  unfold tool
  cases hp : parseArgs p raw with
  | error e => cases e <;> simp
  | ok a =>
    have h := (cliMain_end p world csv wr a).1
    constructor
    · intro h0
      refine ⟨a, rfl, h.mp ?_⟩
      dsimp only at h0
      cases hc : (cliMain p world csv wr a).2 with
      | ok u => rfl
      | error e => rw [hc] at h0; cases e <;> cases h0
    · rintro ⟨a', ha, h1⟩
      cases ha
      show (mainExit (cliMain p world csv wr a).2).status = 0
      rw [h.mpr h1]; rfl

/-- C95: the tool reports the error `e` exactly if the first pair that fails alone returns it; the message names it, the status is 1,
and nothing has been printed or written before. -/
theorem C95_error (p : Profile) (world : World F) (csv : String → CsvContent) (wr : String → Bool) (raw : RawArgs) (e : VisqolError) :
    (tool p world csv wr raw).2.message = some ("Error: " ++ e.debug ++ "\n") ↔ ∃ a, parseArgs p raw = .ok a ∧
      ∃ pre q post m rs, buildFilePairPaths csv a = .ok (pre ++ q :: post) ∧
      Manager.new world a.variant.numBands a.variant a.searchWindowRadius = .ok m ∧ EachAlone p world m pre rs ∧
      m.run p world q.reference q.degraded = .error (.err e) := by
  unfold tool
  cases hp : parseArgs p raw with
  | error e => cases e <;> simp
  | ok a =>
    have h := (cliMain_end p world csv wr a).2.1 e
    constructor
    · intro h0
      refine ⟨a, rfl, h.mp ?_⟩
      dsimp only at h0
      cases hc : (cliMain p world csv wr a).2 with
      | ok u =>
        rw [hc] at h0
        have := congrArg String.toList (Option.some.inj h0)
        simp only [String.toList_append] at this
        cases this
      | error e' =>
        rw [hc] at h0
        cases e' with
        | err e' =>
          have := Option.some.inj h0
          rw [String.append_assoc, String.append_assoc] at this
          have := congrArg String.toList this
          simp only [String.toList_append] at this
          have := List.append_cancel_right (List.append_cancel_left this)
          rw [(C95_distinct e' e).2 (String.toList_injective this)]
        | external => cases h0
        | panic q => cases h0
    · rintro ⟨a', ha, h1⟩
      cases ha
      show (mainExit (cliMain p world csv wr a).2).message = _
      rw [h.mpr h1]; rfl

/-- C95: with a status other than 0 after a failed comparison nothing has been printed to the standard output and no file written; the
possible statuses, and what each of them means: 2 for a refused command line; 1 for an error value of the library, or a failure to read
the list of files or an audio file; 101 for everything else, a panic. -/
theorem C95_status (p : Profile) (world : World F) (csv : String → CsvContent) (wr : String → Bool) (raw : RawArgs) :
    (tool p world csv wr raw).2.status ∈ [0, 1, 2, 101] ∧
    ((tool p world csv wr raw).2.status = 2 ↔ parseArgs p raw = .error .usage) ∧
    ((tool p world csv wr raw).2.status = 1 ↔ ∃ a, parseArgs p raw = .ok a ∧ (buildFilePairPaths csv a = .error .external ∨
      ∃ pre q post m rs, buildFilePairPaths csv a = .ok (pre ++ q :: post) ∧
      Manager.new world a.variant.numBands a.variant a.searchWindowRadius = .ok m ∧ EachAlone p world m pre rs ∧
      (m.run p world q.reference q.degraded = .error .external ∨ ∃ e, m.run p world q.reference q.degraded = .error (.err e)))) ∧
    ((tool p world csv wr raw).2.status = 1 ∨ (tool p world csv wr raw).2.status = 2 → (tool p world csv wr raw).1 = []) := by
  unfold tool
  cases hp : parseArgs p raw with
  | error e => cases e <;> simp
  | ok a =>
    obtain ⟨h1, h2, h3⟩ := cliMain_end p world csv wr a
    dsimp only
    have hst : ((mainExit (cliMain p world csv wr a).2).status = 1 ↔
        (cliMain p world csv wr a).2 = .error .external ∨ ∃ e, (cliMain p world csv wr a).2 = .error (.err e)) := by
      cases (cliMain p world csv wr a).2 with
      | ok u => simp [mainExit]
      | error e => cases e <;> simp [mainExit]
    have hnone : (mainExit (cliMain p world csv wr a).2).status = 1 → (cliMain p world csv wr a).1 = [] := by
      intro h
      have h := hst.mp h
      unfold cliMain at h ⊢
      cases hc : cliCompute p world csv a with
      | error e => rfl
      | ok x =>
        rw [hc] at h
        rcases (writeResults_end wr a x.2 x.1).2 with h' | h' <;> dsimp only at h <;> rw [h'] at h <;>
          rcases h with h | ⟨e, h⟩ <;> cases h
    have hne : (mainExit (cliMain p world csv wr a).2).status ≠ 2 := by
      cases (cliMain p world csv wr a).2 with
      | ok u => simp [mainExit]
      | error e => cases e <;> simp [mainExit]
    refine ⟨?_, ⟨fun h => absurd h hne, fun h => by cases h⟩, hst.trans ?_, ?_⟩
    · cases (cliMain p world csv wr a).2 with
      | ok u => simp [mainExit]
      | error e => cases e <;> simp [mainExit]
    · constructor
      · rintro (h | ⟨e, h⟩)
        · refine ⟨a, rfl, ?_⟩
          rcases h3.mp h with h | ⟨pre, q, post, m, rs, g1, g2, g3, g4⟩
          · exact .inl h
          · exact .inr ⟨pre, q, post, m, rs, g1, g2, g3, .inl g4⟩
        · obtain ⟨pre, q, post, m, rs, g1, g2, g3, g4⟩ := (h2 e).mp h
          exact ⟨a, rfl, .inr ⟨pre, q, post, m, rs, g1, g2, g3, .inr ⟨e, g4⟩⟩⟩
      · rintro ⟨a', ha, h⟩
        cases ha
        rcases h with h | ⟨pre, q, post, m, rs, g1, g2, g3, g4 | ⟨e, g4⟩⟩
        · exact .inl (h3.mpr (.inl h))
        · exact .inl (h3.mpr (.inr ⟨pre, q, post, m, rs, g1, g2, g3, g4⟩))
        · exact .inr ⟨e, (h2 e).mpr ⟨pre, q, post, m, rs, g1, g2, g3, g4⟩⟩
    · rintro (h | h)
      · exact hnone h
      · exact absurd h hne

/-! ## Examples -/

example : (VisqolError.tooFewSamples 5 1280).display = "Signal is too short! Found 5 samples, minimum required is 1280" := by decide +kernel
example : (VisqolError.tooFewSamples 5 1280).debug = "TooFewSamples { found: 5, minimum_required: 1280 }" := by decide +kernel

theorem onceEach_pair (a b : String) : OnceEach toolOptions [("reference_file", some a), ("degraded_file", some b)] := by
  refine ⟨fun id v h => ?_, by simp⟩
  simp only [List.mem_cons, Prod.mk.injEq, List.not_mem_nil, or_false] at h
  rcases h with ⟨rfl, rfl⟩ | ⟨rfl, rfl⟩ <;> simp [toolOptions]

/-- `C95_success`: the tool, given a file and itself, ends with status 0. -/
example (wr : String → Bool) : (tool .wrapping demoWorld (fun _ => none) wr
    ⟨[("reference_file", some "ref.wav"), ("degraded_file", some "ref.wav")],
      some ("fullband", [("similarity_to_quality_model", some "model.txt")])⟩).2.status = 0 := by
  obtain ⟨_, m', res, h⟩ := fullband_run .wrapping (le_refl 40000) (by omega) (le_refl 40000) (by omega) demo_i16.1 demo_i16.1
    demo_ref demo_ref (path := "model.txt") rfl (m := demoManager) demo_new
  have hm := demo_new
  have he : EachAlone .wrapping demoWorld demoManager [⟨"ref.wav", "ref.wav"⟩] [res] := by
    unfold EachAlone
    exact .cons ⟨m', h⟩ .nil
  generalize demoWorld = world at *
  generalize demoManager = m at *
  have ha : parseArgs .wrapping ⟨[("reference_file", some "ref.wav"), ("degraded_file", some "ref.wav")],
      some ("fullband", [("similarity_to_quality_model", some "model.txt")])⟩ =
      .ok ⟨.fullband "model.txt", none, some "ref.wav", some "ref.wav", none, false, none, 60⟩ := by
    rw [C79_release]
    refine ⟨onceEach_pair _ _, by simp, .model (by simp [OnceEach]) (by simp), by simp, by simp [eq_comm], by simp [eq_comm],
      by simp [eq_comm], by simp [eq_comm], by simp, .inl ⟨by simp, rfl⟩⟩
  rw [C95_success]
  exact ⟨_, ha, _, m, [res], C48_pair _ _ rfl rfl, hm, he, by simp, by simp⟩

/-- `C95_error`: files of different rates. -/
example (wr : String → Bool) : (tool .wrapping demoWorld (fun _ => none) wr
    ⟨[("reference_file", some "ref.wav"), ("degraded_file", some "8k.wav")], some ("wideband", [])⟩).2.message =
      some "Error: DifferentSampleRates { reference: 16000, degraded: 8000 }\n" := by
  have h1 : loadAsMono (demoWorld.wav "ref.wav") = .ok (steadySignal 40000 20000) := demo_ref ▸ load_steady _ demo_i16.1
  obtain ⟨data, h2, _⟩ := C18_downmix_real 1 8000 20000 (List.replicate 20000 1000) (by decide)
    (fun x hx => by rw [List.eq_of_mem_replicate hx]; unfold IsI16; omega) (by rw [List.length_replicate])
  rw [← demo_8k] at h2
  have h3 : ∀ m : Manager ℝ, m.run .wrapping demoWorld "ref.wav" "8k.wav" = .error (.err (.differentSampleRates 16000 8000)) :=
    fun m => C16_mismatch h1 h2 (by show 16000 ≠ 8000; decide)
  generalize demoWorld = world at *
  have ha : parseArgs .wrapping ⟨[("reference_file", some "ref.wav"), ("degraded_file", some "8k.wav")], some ("wideband", [])⟩ =
      .ok ⟨.wideband false, none, some "ref.wav", some "8k.wav", none, false, none, 60⟩ := by
    rw [C79_release]
    refine ⟨onceEach_pair _ _, by simp, .wideband (by simp [OnceEach]) (by simp), by simp, by simp [eq_comm], by simp [eq_comm],
      by simp [eq_comm], by simp [eq_comm], by simp, .inl ⟨by simp, rfl⟩⟩
  have he : "Error: DifferentSampleRates { reference: 16000, degraded: 8000 }\n" =
      "Error: " ++ (VisqolError.differentSampleRates 16000 8000).debug ++ "\n" := by decide +kernel
  rw [he, C95_error]
  exact ⟨_, ha, [], _, [], _, [], C48_pair _ _ rfl rfl, rfl, .nil, h3 _⟩

end Visqol
