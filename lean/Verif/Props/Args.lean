import Verif.Spec.Args
import Verif.Props.Cli
import Verif.Props.Witness

/-! # Command line arguments (C79) -/

namespace Visqol

/-! ## Looking up options -/

theorem isGiven_iff {g : Given} {id : String} : isGiven g id = true ↔ ∃ v, (id, v) ∈ g := by
  simp only [isGiven, List.any_eq_true, beq_iff_eq, Prod.exists]
  constructor
  · rintro ⟨a, v, h, rfl⟩; exact ⟨v, h⟩
  · rintro ⟨v, h⟩; exact ⟨id, v, h, rfl⟩

theorem valueGiven_iff {g : Given} (hn : (g.map Prod.fst).Nodup) {id s : String} :
    valueGiven g id = some s ↔ (id, some s) ∈ g := by
  induction g with
  | nil => simp [valueGiven]
  | cons x g ih =>
    obtain ⟨a, v⟩ := x
    rw [List.map_cons, List.nodup_cons] at hn
    have ih := ih hn.2
    unfold valueGiven at ih ⊢
    by_cases h : a = id
    · subst h
      simp only [List.find?_cons, beq_self_eq_true, Option.bind_some, List.mem_cons, Prod.mk.injEq, true_and]
      constructor
      · intro h; exact .inl h.symm
      · rintro (h | h)
        · exact h.symm
        · exact absurd (List.mem_map.mpr ⟨_, h, rfl⟩) hn.1
    · have hb : (a == id) = false := by simpa using h
      simp only [List.find?_cons, hb, ih, List.mem_cons, Prod.mk.injEq]
      constructor
      · exact .inr
      · rintro (h' | h')
        · exact absurd h'.1.symm h
        · exact h'

theorem givenOk_iff {decls : List ArgDecl} {g : Given} : givenOk decls g = true ↔
    (∀ id v, (id, v) ∈ g → ∃ d ∈ decls, d.id = id ∧ d.takesValue = v.isSome) ∧ (g.map Prod.fst).Nodup := by
  simp [givenOk, Prod.forall]

/-- A number in decimal notation is read as that number. -/
theorem parseUsize_repr {n : Nat} (h : n < 2 ^ 64) : parseUsize (toString n) = some n := by
  have hd : ∀ c ∈ Nat.toDigits 10 n, c.isDigit = true := fun c hc => Nat.isDigit_of_mem_toDigits (by norm_num) (by norm_num) hc
  have hl : (toString n).toList = Nat.toDigits 10 n := by
    show (Nat.repr n).toList = _
    simp [Nat.repr]
  unfold parseUsize
  rw [hl]
  have hne : Nat.toDigits 10 n ≠ [] := Nat.toDigits_ne_nil
  have hm : dropPlus (Nat.toDigits 10 n) = Nat.toDigits 10 n := by
    unfold dropPlus
    split
    · rename_i l e
      have := hd '+' (by rw [e]; simp)
      exact absurd this (by decide)
    · rfl
  rw [hm]
  have hv : (Nat.toDigits 10 n).foldl (fun n c => 10 * n + (c.toNat - '0'.toNat)) 0 = n := by
    rw [← Nat.ofDigitChars_eq_foldl]
    exact Nat.ofDigitChars_ten_toDigits
  simp only [hv, if_pos h]
  exact if_pos ⟨hne, by simpa using hd⟩

/-! ## C79 -/

/-- C79, debug builds: whatever the arguments are, the tool panics before looking at them. -/
theorem C79_debug (raw : RawArgs) : parseArgs .checked raw = .error .panic := by
  have h : mentionsDeclared topDecls = false := by decide
  simp [parseArgs, h]

theorem no_missing (g : Given) : missing topDecls g = false := by
  have h : ∀ d ∈ topDecls, ∀ r ∈ d.requires, topDecls.any (fun e => e.id == r) = false := by decide
  rw [missing, List.any_eq_false]
  intro d hd
  rw [Bool.and_eq_true, not_and]
  intro _
  rw [List.any_eq_true]
  rintro ⟨r, hr, h'⟩
  rw [h d hd r hr] at h'
  simp at h'

theorem givenOk_once {decls : List ArgDecl} {g : Given} :
    givenOk decls g = true ↔ OnceEach (decls.map fun d => (d.id, d.takesValue)) g := by
  rw [givenOk_iff, OnceEach]
  simp only [List.mem_map, Prod.mk.injEq]

theorem chooses_iff (sub : Option (String × Given)) (v : Variant) : parseSub sub = some v ↔ Chooses sub v := by
  constructor
  · intro h
    unfold parseSub at h
    split at h
    · rename_i g
      split at h
      · rename_i hok
        obtain ⟨h1, h2⟩ := givenOk_once.mp hok
        cases h
        cases hb : isGiven g "use_unscaled_speech_mos_mapping"
        · exact .wideband ⟨h1, h2⟩ fun hm => by rw [isGiven_iff.mpr ⟨_, hm⟩] at hb; cases hb
        · obtain ⟨w, hw⟩ := isGiven_iff.mp hb
          have := h1 _ _ hw
          refine .unscaled ⟨h1, h2⟩ ?_
          cases w with
          | none => exact hw
          | some s => simp [widebandDecls] at this
      · cases h
    · rename_i g
      split at h
      · rename_i hok
        obtain ⟨h1, h2⟩ := givenOk_once.mp hok
        cases h
        cases hb : valueGiven g "similarity_to_quality_model" with
        | none => exact .fullband ⟨h1, h2⟩ fun s hs => by rw [(valueGiven_iff h2).mpr hs] at hb; cases hb
        | some s => exact .model ⟨h1, h2⟩ ((valueGiven_iff h2).mp hb)
      · cases h
    · cases h
  · intro h
    cases h with
    | wideband h1 h2 =>
      rename_i g
      have e : isGiven g "use_unscaled_speech_mos_mapping" = false := by
        rw [Bool.eq_false_iff]
        intro h
        obtain ⟨w, hw⟩ := isGiven_iff.mp h
        cases w with
        | none => exact h2 hw
        | some s => simpa using h1.1 _ _ hw
      simp [parseSub, (givenOk_once (decls := widebandDecls)).mpr h1, e]
    | unscaled h1 h2 => simp [parseSub, (givenOk_once (decls := widebandDecls)).mpr h1, isGiven_iff.mpr ⟨_, h2⟩]
    | fullband h1 h2 =>
      rename_i g
      have e : valueGiven g "similarity_to_quality_model" = none := by
        rw [Option.eq_none_iff_forall_not_mem]
        intro s hs
        exact h2 s ((valueGiven_iff h1.2).mp hs)
      simp [parseSub, (givenOk_once (decls := fullbandDecls)).mpr h1, e]
    | model h1 h2 => simp [parseSub, (givenOk_once (decls := fullbandDecls)).mpr h1, (valueGiven_iff h1.2).mpr h2]

/-- C79, release builds: a command line is accepted as `a` exactly if every option is in order, no list of files is given together
with a single file, the subcommand is valid and the radius is readable; `a` then holds what was given, and the defaults otherwise. -/
theorem C79_release (raw : RawArgs) (a : CliArgs) : parseArgs .wrapping raw = .ok a ↔
    OnceEach toolOptions raw.top ∧
    (∀ f s, ("batch_input_csv", some f) ∈ raw.top → ("reference_file", some s) ∉ raw.top ∧ ("degraded_file", some s) ∉ raw.top) ∧
    Chooses raw.sub a.variant ∧
    (∀ s, a.batchInputCsv = some s ↔ ("batch_input_csv", some s) ∈ raw.top) ∧
    (∀ s, a.referenceFile = some s ↔ ("reference_file", some s) ∈ raw.top) ∧
    (∀ s, a.degradedFile = some s ↔ ("degraded_file", some s) ∈ raw.top) ∧
    (∀ s, a.resultsCsv = some s ↔ ("results_csv", some s) ∈ raw.top) ∧
    (∀ s, a.outputDebug = some s ↔ ("output_debug", some s) ∈ raw.top) ∧
    (a.verbose = true ↔ ("verbose", none) ∈ raw.top) ∧
    ((∀ s, ("search_window_radius", some s) ∉ raw.top) ∧ a.searchWindowRadius = 60 ∨
      ∃ s, ("search_window_radius", some s) ∈ raw.top ∧ parseUsize s = some a.searchWindowRadius) := by
  have hp : parseArgs .wrapping raw = if !givenOk topDecls raw.top || conflict topDecls raw.top then .error .usage
      else match parseSub raw.sub, parseRadius raw.top with
        | some v, some radius =>
          .ok { variant := v, batchInputCsv := valueGiven raw.top "batch_input_csv",
                referenceFile := valueGiven raw.top "reference_file", degradedFile := valueGiven raw.top "degraded_file",
                resultsCsv := valueGiven raw.top "results_csv", verbose := isGiven raw.top "verbose",
                outputDebug := valueGiven raw.top "output_debug", searchWindowRadius := radius }
        | _, _ => .error .usage := by
    unfold parseArgs
    rw [if_neg (by simp), no_missing, Bool.or_false]
    rfl
  rw [hp]
  by_cases hok : givenOk topDecls raw.top = true
  swap
  · rw [if_pos (by simp [hok])]
    constructor
    · intro h; cases h
    · intro h; exact absurd ((givenOk_once (decls := topDecls)).mpr h.1) hok
  have ho := givenOk_once.mp hok
  have hn := ho.2
  have hval : ∀ id v, (id, true) ∈ topDecls.map (fun d => (d.id, d.takesValue)) → (id, false) ∉ topDecls.map (fun d => (d.id, d.takesValue)) →
      (id, v) ∈ raw.top → ∃ s, v = some s := by
    intro id v _ h2 h3
    have := ho.1 _ _ h3
    cases v with
    | none => exact absurd this h2
    | some s => exact ⟨s, rfl⟩
  have hconf : conflict topDecls raw.top = false ↔ ∀ f s, ("batch_input_csv", some f) ∈ raw.top →
      ("reference_file", some s) ∉ raw.top ∧ ("degraded_file", some s) ∉ raw.top := by
    have e : conflict topDecls raw.top = true ↔ isGiven raw.top "batch_input_csv" = true ∧
        (isGiven raw.top "reference_file" = true ∨ isGiven raw.top "degraded_file" = true) := by
      simp only [conflict, topDecls, List.any_cons, List.any_nil, Bool.or_false, Bool.and_false, Bool.or_eq_true, Bool.and_eq_true]
      tauto
    rw [← Bool.not_eq_true, e]
    simp only [isGiven_iff]
    constructor
    · intro h f s hf
      exact ⟨fun hs => h ⟨⟨_, hf⟩, .inl ⟨_, hs⟩⟩, fun hs => h ⟨⟨_, hf⟩, .inr ⟨_, hs⟩⟩⟩
    · rintro h ⟨⟨v, hv⟩, h'⟩
      obtain ⟨f, rfl⟩ := hval _ _ (by decide) (by decide) hv
      rcases h' with ⟨w, hw⟩ | ⟨w, hw⟩
      · obtain ⟨s, rfl⟩ := hval _ _ (by decide) (by decide) hw
        exact (h f s hv).1 hw
      · obtain ⟨s, rfl⟩ := hval _ _ (by decide) (by decide) hw
        exact (h f s hv).2 hw
  by_cases hc : conflict topDecls raw.top = true
  · rw [if_pos (by simp [hc])]
    constructor
    · intro h; cases h
    · intro h; rw [hconf.mpr h.2.1] at hc; cases hc
  have hc : conflict topDecls raw.top = false := by simpa using hc
  rw [if_neg (by simp [hok, hc])]
  have hverb : isGiven raw.top "verbose" = true ↔ ("verbose", none) ∈ raw.top := by
    rw [isGiven_iff]
    constructor
    · rintro ⟨v, hv⟩
      have := ho.1 _ _ hv
      cases v with
      | none => exact hv
      | some s => exact absurd this (show ("verbose", true) ∉ topDecls.map (fun d => (d.id, d.takesValue)) by decide)
    · intro h; exact ⟨_, h⟩
  have hrad : ∀ r, parseRadius raw.top = some r ↔ ((∀ s, ("search_window_radius", some s) ∉ raw.top) ∧ r = 60 ∨
      ∃ s, ("search_window_radius", some s) ∈ raw.top ∧ parseUsize s = some r) := by
    intro r
    unfold parseRadius
    cases e : valueGiven raw.top "search_window_radius" with
    | none =>
      have h0 : ∀ s, ("search_window_radius", some s) ∉ raw.top := fun s hs => by
        rw [(valueGiven_iff hn).mpr hs] at e; cases e
      simp only [Option.some.injEq]
      constructor
      · intro h; exact .inl ⟨h0, h.symm⟩
      · rintro (h | ⟨s, hs, _⟩)
        · exact h.2.symm
        · exact absurd hs (h0 s)
    | some s =>
      have hs := (valueGiven_iff hn).mp e
      constructor
      · intro h; exact .inr ⟨s, hs, h⟩
      · rintro (h | ⟨s', hs', h⟩)
        · exact absurd hs (h.1 s)
        · rw [(valueGiven_iff hn).mpr hs'] at e
          cases e
          exact h
  constructor
  · intro h
    split at h
    · rename_i v r hv hr
      cases h
      exact ⟨ho, hconf.mp hc, (chooses_iff _ _).mp hv, fun s => valueGiven_iff hn, fun s => valueGiven_iff hn, fun s => valueGiven_iff hn,
        fun s => valueGiven_iff hn, fun s => valueGiven_iff hn, hverb, (hrad r).mp hr⟩
    · cases h
  · rintro ⟨_, _, h3, h4, h5, h6, h7, h8, h9, h10⟩
    rw [(chooses_iff _ _).mpr h3, (hrad _).mpr h10]
    have ext : ∀ {x y : Option String}, (∀ s, x = some s ↔ y = some s) → x = y := fun h => Option.ext h
    obtain ⟨v, b, rf, df, rc, vb, od, sw⟩ := a
    simp only [Except.ok.injEq, CliArgs.mk.injEq, true_and, and_true]
    refine ⟨ext fun s => ?_, ext fun s => ?_, ext fun s => ?_, ext fun s => ?_, ?_, ext fun s => ?_⟩
    · rw [valueGiven_iff hn, ← h4 s]
    · rw [valueGiven_iff hn, ← h5 s]
    · rw [valueGiven_iff hn, ← h6 s]
    · rw [valueGiven_iff hn, ← h7 s]
    · rw [Bool.eq_iff_iff, hverb, ← h9]
    · rw [valueGiven_iff hn, ← h8 s]

/-- C79, release builds: a reference without a degraded file, or the other way round, is accepted although the declarations say
that one requires the other; the tool then compares nothing, prints the version line and reports success. -/
theorem C79_half_pair {F : Type} [Flt F] [RustFft F] (p : Profile) (world : World F) (csv : String → CsvContent)
    (writable : String → Bool) (raw : RawArgs) {v : Variant} {f : String} (hv : Chooses raw.sub v) (hm : ∀ path, v = .fullband path → (world.svr path).isSome)
    (h : raw.top = [("reference_file", some f)] ∨ raw.top = [("degraded_file", some f)]) :
    ∃ a, parseArgs .wrapping raw = .ok a ∧ cliMain p world csv writable a = ([.banner], .ok ()) := by
  have hnew : ∃ m, Manager.new world v.numBands v 60 = .ok m := by
    cases v with
    | wideband u => exact ⟨_, rfl⟩
    | fullband path =>
      obtain ⟨x, hx⟩ := Option.isSome_iff_exists.mp (hm path rfl)
      exact ⟨_, by simp only [Manager.new, hx, expect, ok_bind]; rfl⟩
  obtain ⟨m, hm⟩ := hnew
  rcases h with h | h
  · refine ⟨⟨v, none, some f, none, none, false, none, 60⟩, ?_, ?_⟩
    · rw [C79_release, h]
      exact ⟨by simp [OnceEach, toolOptions], by simp, hv, by simp, by simp [eq_comm], by simp, by simp, by simp, by simp, by simp⟩
    · simp [cliMain, cliCompute, buildFilePairPaths, hm, runBatch, writeResults, optTrace, Trace.andThen, ok_bind]
  · refine ⟨⟨v, none, none, some f, none, false, none, 60⟩, ?_, ?_⟩
    · rw [C79_release, h]
      exact ⟨by simp [OnceEach, toolOptions], by simp, hv, by simp, by simp, by simp [eq_comm], by simp, by simp, by simp, by simp⟩
    · simp [cliMain, cliCompute, buildFilePairPaths, hm, runBatch, writeResults, optTrace, Trace.andThen, ok_bind]

/-- C79, release builds: a search radius in decimal notation is read as that number, and one that is no number is refused. -/
theorem C79_radius (raw : RawArgs) {s : String} (hs : ("search_window_radius", some s) ∈ raw.top) :
    (∀ n < 2 ^ 64, s = toString n → ∀ a, parseArgs .wrapping raw = .ok a → a.searchWindowRadius = n) ∧
    ((∃ c ∈ s.toList, ¬ c.isDigit ∧ c ≠ '+') → ∀ a, parseArgs .wrapping raw ≠ .ok a) := by
  have key : ∀ a, parseArgs .wrapping raw = .ok a → parseUsize s = some a.searchWindowRadius := by
    intro a h
    rw [C79_release] at h
    obtain ⟨h1, _, _, _, _, _, _, _, _, h2⟩ := h
    rcases h2 with ⟨h2, _⟩ | ⟨s', h2, h3⟩
    · exact absurd hs (h2 s)
    · have e1 := (valueGiven_iff h1.2).mpr hs
      rw [(valueGiven_iff h1.2).mpr h2] at e1
      cases e1
      exact h3
  constructor
  · rintro n hn rfl a h
    have := key a h
    rw [parseUsize_repr hn] at this
    exact (Option.some.inj this).symm
  · rintro ⟨c, hc, h1, h2⟩ a h
    have := key a h
    unfold parseUsize at this
    dsimp only at this
    split at this
    · rename_i h3
      have hc' : c ∈ dropPlus s.toList := by
        unfold dropPlus
        split
        · rename_i l e
          rw [e] at hc
          rcases List.mem_cons.mp hc with hc | hc
          · exact absurd hc h2
          · exact hc
        · exact hc
      exact h1 (List.all_eq_true.mp h3.2 c hc')
    · cases this

/-! ## Examples -/

/-- An accepted command line with every option of the tool. -/
example : parseArgs .wrapping ⟨[("reference_file", some "a.wav"), ("degraded_file", some "b.wav"), ("results_csv", some "r.csv"),
      ("verbose", none), ("output_debug", some "d.json"), ("search_window_radius", some "12")],
      some ("wideband", [("use_unscaled_speech_mos_mapping", none)])⟩ =
    .ok ⟨.wideband true, none, some "a.wav", some "b.wav", some "r.csv", true, some "d.json", 12⟩ := by
  rw [C79_release]
  have ho : OnceEach toolOptions [("reference_file", some "a.wav"), ("degraded_file", some "b.wav"), ("results_csv", some "r.csv"),
      ("verbose", none), ("output_debug", some "d.json"), ("search_window_radius", some "12")] := by
    refine ⟨fun id v h => ?_, by decide⟩
    simp only [List.mem_cons, Prod.mk.injEq, List.not_mem_nil, or_false] at h
    rcases h with ⟨rfl, rfl⟩ | ⟨rfl, rfl⟩ | ⟨rfl, rfl⟩ | ⟨rfl, rfl⟩ | ⟨rfl, rfl⟩ | ⟨rfl, rfl⟩ <;> simp [toolOptions]
  refine ⟨ho, by simp, .unscaled (by simp [OnceEach]) (by simp), by simp, by simp [eq_comm], by simp [eq_comm],
    by simp [eq_comm], by simp [eq_comm], by simp, .inr ⟨"12", by simp, parseUsize_repr (n := 12) (by norm_num)⟩⟩

/-- A list of files together with a reference is refused. -/
example (a : CliArgs) : parseArgs .wrapping ⟨[("batch_input_csv", some "l.csv"), ("reference_file", some "a.wav")], some ("wideband", [])⟩ ≠ .ok a := by
  rw [Ne, C79_release]
  rintro ⟨_, h, _⟩
  exact (h "l.csv" "a.wav" (by simp)).1 (by simp)

/-- The hypotheses of `C79_half_pair`. -/
example : Chooses (some ("fullband", [])) (.fullband "./model/libsvm_nu_svr_model.txt") ∧
    (demoWorld.svr "./model/libsvm_nu_svr_model.txt").isSome :=
  ⟨.fullband ⟨by simp, by simp⟩ (by simp), rfl⟩

end Visqol
