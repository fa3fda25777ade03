import Verif.Props.Cli
import Mathlib.Data.List.GetD

/-! # What the command line tool prints and writes, position by position (C05, C50) -/

set_option linter.unusedSectionVars false

namespace Visqol
variable {F : Type} [Flt F] [RustFft F]

/-! ## C05 for the tool -/

theorem EachAlone.mem {p : Profile} {world : World F} {m : Manager F} {pairs : List PathPair} {rs : List (SimilarityResult F)}
    (h : EachAlone p world m pairs rs) : ∀ r ∈ rs, ∃ q ∈ pairs, ∃ m', m.run p world q.reference q.degraded = .ok (m', r) := by
  induction h with
  | nil => simp
  | cons h1 _ ih =>
    intro r hr
    rcases List.mem_cons.mp hr with rfl | hr
    · exact ⟨_, List.mem_cons_self, h1⟩
    · obtain ⟨q, hq, h⟩ := ih r hr
      exact ⟨q, List.mem_cons_of_mem _ hq, h⟩

theorem runBatch_each {p : Profile} {world : World F} {m : Manager F} {pairs : List PathPair} {rs : List (SimilarityResult F)}
    (h : runBatch p world m pairs = .ok rs) : EachAlone p world m pairs rs := by
  rcases C15_cases p world m pairs with ⟨rs', h'⟩ | ⟨pre, q, post, rs', e, h1, h2, h3⟩
  · rw [runBatch_ok (Manager.Sim.refl m) h'] at h
    cases h
    exact h'
  · subst h1
    rw [runBatch_error h3 (Manager.Sim.refl m) h2] at h
    cases h

theorem new_numBands {world : World F} {nb k : Nat} {v : Variant} {m : Manager F} (h : Manager.new world nb v k = .ok m) : m.numBands = nb := by
  unfold Manager.new at h
  cases v with
  | wideband u => cases h; rfl
  | fullband path =>
    obtain ⟨_, _, h⟩ := bind_ok h
    cases h
    rfl

/-- C05 for the command line tool: a wideband result has 21 bands, a fullband result 32. -/
theorem C05_tool {p : Profile} {world : World F} {csv : String → CsvContent} {a : CliArgs} {pairs : List PathPair}
    {rs : List (SimilarityResult F)} (h : cliCompute p world csv a = .ok (pairs, rs)) :
    ∀ r ∈ rs, ∀ n, n = (match a.variant with | .wideband _ => 21 | .fullband _ => 32) →
      r.fvnsim.length = n ∧ r.fstdnsim.length = n ∧ r.fvdegenergy.length = n ∧ r.centerFreqBands.length = n ∧ r.patchSims ≠ [] ∧
      ∀ q ∈ r.patchSims, q.freqBandMeans.length = n ∧ q.freqBandStddevs.length = n ∧ q.freqBandDegEnergy.length = n := by
  intro r hr n hn
  unfold cliCompute at h
  obtain ⟨_, _, h⟩ := bind_ok h
  obtain ⟨m, hm, h⟩ := bind_ok h
  obtain ⟨rs', hrs, h⟩ := bind_ok h
  cases h
  obtain ⟨q, _, m', hrun⟩ := (runBatch_each hrs).mem r hr
  have hnb : m.numBands = n := by
    rw [new_numBands hm, hn]
    cases a.variant <;> rfl
  have := C05_shapes_run hrun
  rw [hnb] at this
  exact this

/-! ## C50: the fields of a CSV record -/

omit [Flt F] [RustFft F] in
theorem getElem?_mid {α : Type} {a b c : List α} {n i : Nat} (h : n = a.length) (hi : i < b.length) : (a ++ b ++ c)[n + i]? = b[i]? := by
  subst h
  rw [List.append_assoc, List.getElem?_append_right (by omega), List.getElem?_append_left (by omega)]
  congr 1
  omega

omit [Flt F] [RustFft F] in
theorem flatMap_block {α β : Type} {f : α → List β} {w : Nat} : ∀ {l : List α}, (∀ x ∈ l, (f x).length = w) → ∀ {j i : Nat} {x : α}, l[j]? = some x → i < w →
    (l.flatMap f)[j * w + i]? = (f x)[i]?
  | [], _, j, i, x, h, _ => by simp at h
  | y :: l, hw, 0, i, x, h, hi => by
    have hxy : y = x := by simpa using h
    subst hxy
    have hy := hw y List.mem_cons_self
    rw [List.flatMap_cons, List.getElem?_append_left (by omega)]
    simp
  | y :: l, hw, j + 1, i, x, h, hi => by
    have hy := hw y List.mem_cons_self
    rw [List.flatMap_cons, List.getElem?_append_right (by rw [hy, Nat.succ_mul]; omega)]
    have e : (j + 1) * w + i - (f y).length = j * w + i := by rw [hy, Nat.succ_mul]; omega
    rw [e]
    exact flatMap_block (fun z hz => hw z (List.mem_cons_of_mem _ hz)) (by simpa using h) hi

/-- The columns of a CSV record of a result with `n` bands: the score, vnsim, then for every band the similarity, its standard
deviation, the degraded energy and the centre frequency; then for every patch `3 * n + 5` columns. -/
structure Columns (n : Nat) (r : SimilarityResult F) (rec : List F) : Prop where
  width : rec.length = 2 + 4 * n + r.patchSims.length * (3 * n + 5)
  score : rec[0]? = some r.moslqo
  similarity : rec[1]? = some r.vnsim
  band : ∀ b < n, rec[2 + b]? = r.fvnsim[b]?
  bandStd : ∀ b < n, rec[2 + n + b]? = r.fstdnsim[b]?
  bandEnergy : ∀ b < n, rec[2 + 2 * n + b]? = r.fvdegenergy[b]?
  bandFreq : ∀ b < n, rec[2 + 3 * n + b]? = r.centerFreqBands[b]?
  patch : ∀ j q, r.patchSims[j]? = some q → ∀ start, start = 2 + 4 * n + j * (3 * n + 5) →
    (∀ b < n, rec[start + b]? = q.freqBandMeans[b]? ∧ rec[start + (n + b)]? = q.freqBandStddevs[b]? ∧
      rec[start + (2 * n + b)]? = q.freqBandDegEnergy[b]?) ∧
    rec[start + 3 * n]? = some q.similarity ∧ rec[start + (3 * n + 1)]? = some q.refStart ∧ rec[start + (3 * n + 2)]? = some q.refEnd ∧
    rec[start + (3 * n + 3)]? = some q.degStart ∧ rec[start + (3 * n + 4)]? = some q.degEnd

omit [Flt F] [RustFft F] in
theorem patch_fields {n : Nat} {q : PatchSim F} (h : q.freqBandMeans.length = n ∧ q.freqBandStddevs.length = n ∧ q.freqBandDegEnergy.length = n) :
    q.fields.length = 3 * n + 5 ∧ (∀ b < n, q.fields[b]? = q.freqBandMeans[b]? ∧ q.fields[n + b]? = q.freqBandStddevs[b]? ∧
      q.fields[2 * n + b]? = q.freqBandDegEnergy[b]?) ∧
    q.fields[3 * n]? = some q.similarity ∧ q.fields[3 * n + 1]? = some q.refStart ∧ q.fields[3 * n + 2]? = some q.refEnd ∧
    q.fields[3 * n + 3]? = some q.degStart ∧ q.fields[3 * n + 4]? = some q.degEnd := by
  obtain ⟨h1, h2, h3⟩ := h
  unfold PatchSim.fields
  have hl : (q.freqBandMeans ++ q.freqBandStddevs ++ q.freqBandDegEnergy).length = 3 * n := by
    simp only [List.length_append, h1, h2, h3]; omega
  have ht : ∀ i, (q.freqBandMeans ++ q.freqBandStddevs ++ q.freqBandDegEnergy ++ [q.similarity, q.refStart, q.refEnd, q.degStart, q.degEnd])[3 * n + i]? =
      [q.similarity, q.refStart, q.refEnd, q.degStart, q.degEnd][i]? := by
    intro i
    rw [List.getElem?_append_right (by omega)]
    congr 1
    omega
  refine ⟨by rw [List.length_append, hl]; rfl, fun b hb => ⟨?_, ?_, ?_⟩, ht 0, ht 1, ht 2, ht 3, ht 4⟩
  · rw [List.append_assoc, List.append_assoc, List.getElem?_append_left (by omega)]
  · rw [List.append_assoc (q.freqBandMeans ++ q.freqBandStddevs)]
    exact getElem?_mid h1.symm (by omega)
  · exact getElem?_mid (by simp only [List.length_append]; omega) (by omega)

theorem columns_of {n : Nat} {r : SimilarityResult F} (h1 : r.fvnsim.length = n) (h2 : r.fstdnsim.length = n)
    (h3 : r.fvdegenergy.length = n) (h4 : r.centerFreqBands.length = n)
    (h5 : ∀ q ∈ r.patchSims, q.freqBandMeans.length = n ∧ q.freqBandStddevs.length = n ∧ q.freqBandDegEnergy.length = n) :
    Columns n r r.fields := by
  have hw := fields_length h1 h2 h3 h4 h5
  have hp : ∀ q ∈ r.patchSims, q.fields.length = 3 * n + 5 := fun q hq => (patch_fields (h5 q hq)).1
  unfold SimilarityResult.fields at hw ⊢
  refine ⟨hw, rfl, rfl, fun b hb => ?_, fun b hb => ?_, fun b hb => ?_, fun b hb => ?_, fun j q hj start hs => ?_⟩
  · rw [List.append_assoc, List.append_assoc, List.append_assoc]
    exact getElem?_mid rfl (by omega)
  · rw [List.append_assoc, List.append_assoc]
    exact getElem?_mid (by simp only [List.length_append, List.length_cons, List.length_nil]; omega) (by omega)
  · rw [List.append_assoc]
    exact getElem?_mid (by simp only [List.length_append, List.length_cons, List.length_nil]; omega) (by omega)
  · exact getElem?_mid (by simp only [List.length_append, List.length_cons, List.length_nil]; omega) (by omega)
  · obtain ⟨_, g1, g2, g3, g4, g5, g6⟩ := patch_fields (h5 q (List.mem_of_getElem? hj))
    have key : ∀ i < 3 * n + 5, ([r.moslqo, r.vnsim] ++ r.fvnsim ++ r.fstdnsim ++ r.fvdegenergy ++ r.centerFreqBands ++
        r.patchSims.flatMap PatchSim.fields)[start + i]? = q.fields[i]? := by
      intro i hi
      rw [List.getElem?_append_right (by simp only [List.length_append, List.length_cons, List.length_nil]; omega), ← flatMap_block hp hj hi]
      congr 1
      simp only [List.length_append, List.length_cons, List.length_nil]
      omega
    refine ⟨fun b hb => ?_, ?_, ?_, ?_, ?_, ?_⟩
    · rw [key b (by omega), key (n + b) (by omega), key (2 * n + b) (by omega)]
      exact g1 b hb
    · rw [key _ (by omega), g2]
    · rw [key _ (by omega), g3]
    · rw [key _ (by omega), g4]
    · rw [key _ (by omega), g5]
    · rw [key _ (by omega), g6]

/-- C50: every number in the results CSV, by column.  `n` is the number of bands: 21 for wideband, 32 for fullband. -/
theorem C50_columns {p : Profile} {world : World F} {csv : String → CsvContent} {wr : String → Bool} {a : CliArgs}
    {pairs : List PathPair} {rs : List (SimilarityResult F)} (hc : cliCompute p world csv a = .ok (pairs, rs))
    (h : (cliMain p world csv wr a).2 = .ok ()) {path : String} (hp : a.resultsCsv = some path) :
    ∃ records, csvFiles (cliMain p world csv wr a).1 = [(path, records)] ∧
      List.Forall₂ (Columns (match a.variant with | .wideband _ => 21 | .fullband _ => 32)) rs records := by
  have hm : cliMain p world csv wr a = writeResults wr a rs pairs := by unfold cliMain; rw [hc]
  rw [hm] at h ⊢
  rw [writeResults_ok h, hp]
  refine ⟨rs.map SimilarityResult.fields, ?_, ?_⟩
  · unfold csvFiles
    simp only [List.filterMap_append]
    have := csvFiles_console a.verbose (rs.zip pairs)
    unfold csvFiles at this
    rw [this]
    cases a.outputDebug <;> rfl
  · rw [List.forall₂_map_right_iff]
    have := C05_tool hc
    rw [List.forall₂_same]
    intro r hr
    obtain ⟨h1, h2, h3, h4, _, h5⟩ := this r hr _ rfl
    exact columns_of h1 h2 h3 h4 h5

/-! ## C50: the console -/

/-- What the tool prints after the version line, in order. -/
inductive Printed (F : Type) where
  | paths (pair : PathPair)
  | score (mos : F)
  /-- one row per band: similarity and centre frequency -/
  | bands (rows : List (F × F))
  /-- one row per patch: number, similarity, and start and end in both files -/
  | patches (rows : List (Nat × F × (F × F) × (F × F)))

/-- Everything printed, in order; `none` is the version line. -/
def printed (t : List (Effect F)) : List (Option (Printed F)) :=
  t.filterMap fun
    | .banner => some none
    | .paths q => some (some (.paths q))
    | .mosLine v => some (some (.score v))
    | .fvnsimTable l => some (some (.bands l))
    | .patchTable l => some (some (.patches l))
    | _ => none

/-- What is printed about one pair. -/
inductive About (verbose : Bool) (n : Nat) (pair : PathPair) (r : SimilarityResult F) : List (Printed F) → Prop where
  | short : verbose = false → About verbose n pair r [.score r.moslqo]
  | long {bands : List (F × F)} {patches : List (Nat × F × (F × F) × (F × F))} : verbose = true →
      bands.length = n → (∀ (b : Nat) (x : F × F), bands[b]? = some x → r.fvnsim[b]? = some x.1 ∧ r.centerFreqBands[b]? = some x.2) →
      patches.length = r.patchSims.length →
      (∀ (j : Nat) (x : Nat × F × (F × F) × (F × F)), patches[j]? = some x → ∃ q : PatchSim F, r.patchSims[j]? = some q ∧ x.1 = j ∧ x.2.1 = q.similarity ∧
        x.2.2.1 = (q.refStart, q.refEnd) ∧ x.2.2.2 = (q.degStart, q.degEnd)) →
      About verbose n pair r [.paths pair, .score r.moslqo, .bands bands, .patches patches]

/-- C50: the whole console output of a run that ends normally: the version line, then the pairs in order; for each pair its score,
in verbose mode with the paths before it and the two tables after it.  Row `b` of the first table is about band `b`, row `j` of the
second about patch `j`. -/
theorem C50_console {p : Profile} {world : World F} {csv : String → CsvContent} {wr : String → Bool} {a : CliArgs}
    {pairs : List PathPair} {rs : List (SimilarityResult F)} (hc : cliCompute p world csv a = .ok (pairs, rs))
    (h : (cliMain p world csv wr a).2 = .ok ()) :
    ∃ parts : List (List (Printed F)), printed (cliMain p world csv wr a).1 = none :: parts.flatten.map some ∧
      parts.length = pairs.length ∧ rs.length = pairs.length ∧
      ∀ (i : Nat) (pair : PathPair) (r : SimilarityResult F) (part : List (Printed F)), pairs[i]? = some pair → rs[i]? = some r → parts[i]? = some part →
        About a.verbose (match a.variant with | .wideband _ => 21 | .fullband _ => 32) pair r part := by
  have hm : cliMain p world csv wr a = writeResults wr a rs pairs := by unfold cliMain; rw [hc]
  have hlen : rs.length = pairs.length := by
    unfold cliCompute at hc
    obtain ⟨_, _, hc⟩ := bind_ok hc
    obtain ⟨m, hm, hc⟩ := bind_ok hc
    obtain ⟨rs', hrs, hc⟩ := bind_ok hc
    cases hc
    exact (runBatch_each hrs).length.symm
  rw [hm] at h ⊢
  rw [writeResults_ok h]
  let one : SimilarityResult F × PathPair → List (Printed F) := fun x =>
    (if a.verbose then [.paths x.2] else []) ++ [.score x.1.moslqo] ++ (if a.verbose then
      [.bands (x.1.fvnsim.zip x.1.centerFreqBands),
       .patches (x.1.patchSims.zipIdx.map fun x => (x.2, x.1.similarity, (x.1.refStart, x.1.refEnd), (x.1.degStart, x.1.degEnd)))] else [])
  have hcons : ∀ l : List (SimilarityResult F × PathPair), printed (l.flatMap fun x => writeToConsole a.verbose x.1 x.2) = (l.map one).flatten.map some := by
    intro l
    induction l with
    | nil => rfl
    | cons x l ih =>
      rw [List.flatMap_cons, printed, List.filterMap_append]
      unfold printed at ih
      rw [ih, List.map_cons, List.flatten_cons, List.map_append]
      congr 1
      simp only [one, writeToConsole]
      cases a.verbose <;> rfl
  refine ⟨(rs.zip pairs).map one, ?_, by simp [hlen], hlen, ?_⟩
  · have := hcons (rs.zip pairs)
    unfold printed at this ⊢
    simp only [List.filterMap_append, this]
    cases a.outputDebug <;> cases a.resultsCsv <;> rfl
  · intro i pair r part h1 h2 h3
    obtain ⟨k1, _, _, k4, _, _⟩ := C05_tool hc r (List.mem_of_getElem? h2) _ rfl
    have hz : (rs.zip pairs)[i]? = some (r, pair) := List.getElem?_zip_eq_some.mpr ⟨h2, h1⟩
    rw [List.getElem?_map, hz] at h3
    have h3 := Option.some.inj h3
    subst h3
    cases hv : a.verbose with
    | false =>
      have e : one (r, pair) = [.score r.moslqo] := by simp [one, hv]
      rw [e]
      exact .short rfl
    | true =>
      have e : one (r, pair) = [.paths pair, .score r.moslqo, .bands (r.fvnsim.zip r.centerFreqBands),
         .patches (r.patchSims.zipIdx.map fun x => (x.2, x.1.similarity, (x.1.refStart, x.1.refEnd), (x.1.degStart, x.1.degEnd)))] := by
        simp [one, hv]
      rw [e]
      refine .long rfl ?_ ?_ (by simp) ?_
      · rw [List.length_zip, k1, k4, min_self]
      · intro b x hx
        exact List.getElem?_zip_eq_some.mp hx
      · intro j x hx
        rw [List.getElem?_map, List.getElem?_zipIdx, Option.map_map, Option.map_eq_some_iff] at hx
        obtain ⟨q, hq, rfl⟩ := hx
        exact ⟨q, hq, by simp, rfl, rfl, rfl⟩

end Visqol
