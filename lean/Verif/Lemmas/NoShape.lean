import Verif.Lemmas.Shape
import Verif.Lemmas.Errors

/-! # Arrays of different shapes are never combined, and the Fourier transform is never handed a buffer of the wrong length -/

set_option linter.unusedSectionVars false

namespace Visqol

/-- The computation does not fail because of the shape of an array. -/
structure Shaped {α : Type} (x : M α) : Prop where
  ne : x ≠ .error (.panic .shape)

namespace Shaped
variable {α β : Type}

theorem mk_ok (a : α) : Shaped (.ok a : M α) := ⟨fun h => (by cases h)⟩
theorem mk_pure (a : α) : Shaped (pure a : M α) := ⟨fun h => (by cases h)⟩
theorem mk_err (e : VisqolError) : Shaped (.error (.err e) : M α) := ⟨fun h => (by cases h)⟩
theorem mk_ext : Shaped (.error .external : M α) := ⟨fun h => (by cases h)⟩
theorem mk_panic {q : Panic} (h : q ≠ .shape) : Shaped (.error (.panic q) : M α) := ⟨fun h' => by cases h'; exact h rfl⟩
theorem mk_bind' {x : M α} {f : α → M β} (h1 : Shaped x) (h2 : ∀ a, x = .ok a → Shaped (f a)) : Shaped (x >>= f) := by
  refine ⟨fun h => ?_⟩
  rcases bind_error h with h | ⟨a, ha, h⟩
  · exact h1.ne h
  · exact (h2 a ha).ne h
theorem mk_bind {x : M α} {f : α → M β} (h1 : Shaped x) (h2 : ∀ a, Shaped (f a)) : Shaped (x >>= f) := mk_bind' h1 fun a _ => h2 a
theorem mk_mapE {f : α → M β} (h : ∀ a, Shaped (f a)) : ∀ l, Shaped (mapE f l)
  | [] => mk_ok _
  | a :: l => mk_bind (h a) fun _ => mk_bind (mk_mapE h l) fun _ => mk_ok _
theorem mk_foldE {f : β → α → M β} (h : ∀ s a, Shaped (f s a)) : ∀ l s, Shaped (foldE f s l)
  | [], _ => mk_ok _
  | a :: l, s => mk_bind (h s a) fun s' => mk_foldE h l s'
theorem mk_expect (o : Option α) : Shaped (expect o) := by cases o <;> exact ⟨fun h => (by cases h)⟩
theorem mk_idx (l : List α) (i : Nat) : Shaped (idx l i) := by
  unfold idx; split <;> (try split) <;> exact ⟨fun h => (by cases h)⟩
theorem mk_aidx (l : Array α) (i : Nat) : Shaped (aidx l i) := by
  unfold aidx; split <;> (try split) <;> exact ⟨fun h => (by cases h)⟩
theorem mk_setIdx (l : List α) (i : Nat) (a : α) : Shaped (setIdx l i a) := by
  unfold setIdx; split <;> (try split) <;> exact ⟨fun h => (by cases h)⟩
theorem mk_sliceM (l : List α) (i j : Nat) : Shaped (sliceM l i j) := by
  unfold sliceM; split <;> (try split) <;> exact ⟨fun h => (by cases h)⟩
theorem mk_usub (p : Profile) (a b : Nat) : Shaped (usub p a b) := by
  unfold usub; split <;> (try split) <;> exact ⟨fun h => (by cases h)⟩
theorem mk_uadd (p : Profile) (a b : Nat) : Shaped (uadd p a b) := by
  unfold uadd; split <;> (try split) <;> exact ⟨fun h => (by cases h)⟩
theorem mk_outSize (p : Profile) (a b : Nat) : Shaped (outSize p a b) := by
  unfold outSize; split <;> (try split) <;> exact ⟨fun h => (by cases h)⟩
theorem mk_i32 (p : Profile) (z : Int) : Shaped (i32 p z) := by
  unfold i32; split <;> (try split) <;> exact ⟨fun h => (by cases h)⟩
theorem mk_pow2 (p : Profile) (z : Int) : Shaped (pow2 p z) := by
  unfold pow2; split <;> (try split) <;> exact ⟨fun h => (by cases h)⟩
theorem mk_sliceCols {F : Type} (m : Mat F) (a b : Nat) : Shaped (m.sliceCols a b) := by
  unfold Mat.sliceCols; split <;> (try split) <;> exact ⟨fun h => (by cases h)⟩
theorem mk_zip {F : Type} (f : F → F → F) {a b : Mat F} (h : a.SameShape b) : Shaped (Mat.zip f a b) := by
  unfold Mat.zip; rw [if_pos ⟨h.2, h.1⟩]; exact mk_ok _

end Shaped

/-- Close goals `Shaped x` by following the structure of `x`, using the given lemmas for called functions. -/
syntax "shaped" ("[" term,* "]")? : tactic

macro_rules
  | `(tactic| shaped [$ts,*]) => do
    let ts := ts.getElems
    `(tactic| repeat (first
      | intro _
      | with_reducible exact Shaped.mk_ok _ | with_reducible exact Shaped.mk_pure _ | with_reducible exact Shaped.mk_err _
      | with_reducible exact Shaped.mk_ext
      | with_reducible exact Shaped.mk_panic (by decide)
      | with_reducible exact Shaped.mk_expect _ | with_reducible exact Shaped.mk_idx _ _
      | with_reducible exact Shaped.mk_aidx _ _ | with_reducible exact Shaped.mk_setIdx _ _ _
      | with_reducible exact Shaped.mk_sliceM _ _ _ | with_reducible exact Shaped.mk_usub _ _ _
      | with_reducible exact Shaped.mk_uadd _ _ _ | with_reducible exact Shaped.mk_outSize _ _ _
      | with_reducible exact Shaped.mk_i32 _ _ | with_reducible exact Shaped.mk_pow2 _ _
      | with_reducible exact Shaped.mk_sliceCols _ _ _
      | assumption
      | first $[| with_reducible apply $ts]*
      | with_reducible apply Shaped.mk_bind | with_reducible apply Shaped.mk_mapE | with_reducible apply Shaped.mk_foldE
      | split))
  | `(tactic| shaped) => `(tactic| shaped [Shaped.mk_ok])

section
variable {F : Type} [Flt F]

theorem shaped_nextPowTwo (p : Profile) (n : Nat) : Shaped (nextPowTwo p n) := by unfold nextPowTwo; shaped

theorem shaped_fftNew (p : Profile) (n : Nat) : Shaped (FftManager.new p n) :=
  Shaped.mk_bind (shaped_nextPowTwo p n) fun _ => Shaped.mk_ok _

theorem shaped_convCell (a b : Array F) (x y z u v : Nat) : Shaped (convCell a b x y z u v) := by unfold convCell; shaped

theorem shaped_conv2d (p : Profile) (a b : Mat F) : Shaped (conv2d p a b) := by
  unfold conv2d; shaped [shaped_convCell]

theorem shaped_normalize (l : List F) : Shaped (normalizeSignal l) := by unfold normalizeSignal; shaped

theorem shaped_extract (c : Nat) (l : List F) : Shaped (extractMultichannel c l) := by unfold extractMultichannel; shaped

theorem shaped_applyBand (fb : FilterBank F) (b : Nat) (i : List F) : Shaped (fb.applyBand b i) := by
  unfold FilterBank.applyBand; shaped

theorem shaped_applyFilter (fb : FilterBank F) (b : Nat) (i : List F) : Shaped (fb.applyFilter b i) := by
  unfold FilterBank.applyFilter; shaped [shaped_applyBand]

theorem shaped_frameEnergies (n : Nat) (r : List (List F)) : Shaped (frameEnergies n r) := by unfold frameEnergies; shaped

theorem shaped_processFrame (nb : Nat) (fb : FilterBank F) (f : List F) : Shaped (processFrame nb fb f) := by
  unfold processFrame; shaped [shaped_applyFilter, shaped_frameEnergies]

theorem shaped_sort (l : List F) : Shaped (sortFreqs l) := by unfold sortFreqs; shaped

theorem shaped_assemble (a b : Nat) (c : List (List F)) : Shaped (assembleColumns a b c) := by unfold assembleColumns; shaped

theorem shaped_frameFloor (t : F) (a b : Mat F) (j : Nat) : Shaped (frameFloor t a b j) := by unfold frameFloor; shaped

theorem shaped_raise (t : F) (a b : Mat F) : Shaped (raiseFloorPerFrame t a b) := by
  unfold raiseFloorPerFrame; shaped [shaped_frameFloor]

theorem shaped_getMinimum (a : Mat F) : Shaped (getMinimum a) := by unfold getMinimum; shaped

theorem shaped_prepare (a b : Mat F) : Shaped (prepareSpectrograms a b) := by
  unfold prepareSpectrograms; shaped [shaped_raise, shaped_getMinimum]

theorem shaped_voice (s : List F) (a b c : Nat) : Shaped (voiceActivity s a b c) := by unfold voiceActivity; shaped

theorem shaped_vadIndices (p : Profile) (n c : Nat) (r : AudioSignal F) (w : AnalysisWindow F) :
    Shaped (vadPatchIndices p n c r w) := by
  unfold vadPatchIndices; shaped [shaped_normalize, shaped_voice]

theorem shaped_createPatches (n : Nat) (m : Mat F) (i : List Nat) : Shaped (createPatches n m i) := by
  unfold createPatches; shaped

theorem shaped_maxByAbs (l : List F) : Shaped (maxByAbs l) := by
  cases l with
  | nil => exact Shaped.mk_ok _
  | cons a l => unfold maxByAbs; shaped

theorem shaped_calcMaxLoop (p : Profile) (ix : List Nat) (a b : Nat) : ∀ k, Shaped (calcMaxNumPatchesLoop p ix a b k)
  | 0 => by unfold calcMaxNumPatchesLoop; cases p <;> exact Shaped.mk_panic (by decide)
  | k + 1 => by
    unfold calcMaxNumPatchesLoop
    have := shaped_calcMaxLoop p ix a b k
    shaped

theorem shaped_calcMax (p : Profile) (ix : List Nat) (a b : Nat) : Shaped (calcMaxNumPatches p ix a b) := by
  unfold calcMaxNumPatches; split
  · exact Shaped.mk_ok _
  · exact shaped_calcMaxLoop ..

theorem shaped_buildDeg (m : Mat F) (a b : Nat) : Shaped (buildDegradedPatch m a b) := by
  unfold buildDegradedPatch; shaped

theorem shaped_backScan (prev : List F) (lower : Int) : ∀ (n : Nat) (b : Int) (best : F × Int), (b - lower + 1).toNat = n →
    Shaped (backScan prev lower b best) := by
  intro n
  induction n using Nat.strongRecOn with
  | ind n ih =>
    intro b best hn
    unfold backScan
    split
    · refine Shaped.mk_bind (Shaped.mk_idx _ _) fun v => ih _ ?_ _ _ rfl
      omega
    · exact Shaped.mk_ok _

theorem shaped_dpCell (p : Profile) (prev : Option (Nat × List F)) (sw : Int) (o : Nat) (sim : F) :
    Shaped (dpCell p prev sw o sim) := by
  unfold dpCell; shaped [shaped_backScan]
  · rfl
  · shaped

theorem shaped_lastScan (row : List F) : ∀ (l : List Nat) (b : F × Nat), Shaped (lastOffsetScan row l b)
  | [], _ => Shaped.mk_ok _
  | o :: l, b => by
    unfold lastOffsetScan
    exact Shaped.mk_bind (Shaped.mk_idx _ _) fun v => shaped_lastScan row l _

theorem shaped_sliceSignal (s : AudioSignal F) (a b : F) : Shaped (sliceSignal s a b) := by
  unfold sliceSignal; shaped

theorem shaped_perPatchMean (sel : PatchSim F → List F) (ps : List (PatchSim F)) : Shaped (perPatchMean sel ps) := by
  unfold perPatchMean addBands; shaped

theorem shaped_stdContribution (p : Profile) (fd : F) (st : List F × Nat) (q : PatchSim F) :
    Shaped (stdContribution p fd st q) := by
  unfold stdContribution; shaped

theorem shaped_perPatchStd (p : Profile) (ps : List (PatchSim F)) (fd : F) : Shaped (perPatchStdDevs p ps fd) := by
  unfold perPatchStdDevs
  refine Shaped.mk_bind (shaped_perPatchMean ..) fun fvn => Shaped.mk_bind (Shaped.mk_idx _ _) fun first =>
    Shaped.mk_bind (Shaped.mk_foldE (fun s a => shaped_stdContribution ..) _ _) fun r => Shaped.mk_ok _

theorem shaped_predict (q : QualityMapper F) (v : List F) : Shaped (q.predict v) := by
  cases q with
  | speech s => exact Shaped.mk_ok _
  | svr m =>
    unfold QualityMapper.predict svrPredict; shaped

theorem shaped_build {nb : Nat} {fb : FilterBank F} {s : AudioSignal F} {w : AnalysisWindow F} : Shaped (buildSpectrogram nb fb s w) := by
  unfold buildSpectrogram
  dsimp only
  shaped [shaped_processFrame, shaped_assemble, shaped_sort]

theorem shaped_indices {p : Profile} {pc : PatchCreator} {c : Nat} {r : AudioSignal F} {w : AnalysisWindow F} : Shaped (pc.indices p c r w) := by
  cases pc with
  | vad n => exact shaped_vadIndices ..
  | image n =>
    show Shaped (imagePatchIndices n c)
    unfold imagePatchIndices
    dsimp only
    shaped

theorem shaped_load (c : WavContent) : Shaped (loadAsMono (F := F) c) := by
  unfold loadAsMono
  refine Shaped.mk_bind ?_ fun w => Shaped.mk_bind (shaped_extract ..) fun _ => Shaped.mk_ok _
  cases c with
  | unreadable => unfold WavFile.open; shaped
  | wav ch sr bits s => unfold WavFile.open; shaped

end

end Visqol
