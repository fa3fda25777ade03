import Verif.Lemmas.Basic
import Verif.Model.Cli

/-! # Which error values can be returned where -/

set_option linter.unusedSectionVars false

namespace Visqol

/-- Every error *value* (not panic) returned by `x` satisfies `P`, and `x` does not report a failure of something outside the program
(an unreadable file). -/
structure Errs {α : Type} (P : VisqolError → Prop) (x : M α) : Prop where
  out : ∀ e, x = .error (.err e) → P e
  ext : x ≠ .error .external

namespace Errs
variable {P : VisqolError → Prop} {α β : Type}

theorem mk_ok (a : α) : Errs P (.ok a : M α) := ⟨fun _ h => (by cases h), fun h => (by cases h)⟩
theorem mk_pure (a : α) : Errs P (pure a : M α) := ⟨fun _ h => (by cases h), fun h => (by cases h)⟩
theorem mk_panic (q : Panic) : Errs P (.error (.panic q) : M α) := ⟨fun _ h => (by cases h), fun h => (by cases h)⟩
theorem mk_err {e : VisqolError} (h : P e) : Errs P (.error (.err e) : M α) := ⟨fun _ h' => (by cases h'; exact h), fun h => (by cases h)⟩
theorem mk_bind {x : M α} {f : α → M β} (h1 : Errs P x) (h2 : ∀ a, Errs P (f a)) : Errs P (x >>= f) := by
  refine ⟨fun e h => ?_, fun h => ?_⟩
  · rcases bind_error h with h | ⟨a, _, h⟩
    · exact h1.out e h
    · exact (h2 a).out e h
  · rcases bind_error h with h | ⟨a, _, h⟩
    · exact h1.ext h
    · exact (h2 a).ext h
theorem mk_bind' {x : M α} {f : α → M β} (h1 : Errs P x) (h2 : ∀ a, x = .ok a → Errs P (f a)) : Errs P (x >>= f) := by
  refine ⟨fun e h => ?_, fun h => ?_⟩
  · rcases bind_error h with h | ⟨a, ha, h⟩
    · exact h1.out e h
    · exact (h2 a ha).out e h
  · rcases bind_error h with h | ⟨a, ha, h⟩
    · exact h1.ext h
    · exact (h2 a ha).ext h
theorem mk_mapE {f : α → M β} (h : ∀ a, Errs P (f a)) : ∀ l, Errs P (mapE f l)
  | [] => mk_ok _
  | a :: l => mk_bind (h a) fun _ => mk_bind (mk_mapE h l) fun _ => mk_ok _
theorem mk_foldE {f : β → α → M β} (h : ∀ s a, Errs P (f s a)) : ∀ l s, Errs P (foldE f s l)
  | [], _ => mk_ok _
  | a :: l, s => mk_bind (h s a) fun s' => mk_foldE h l s'
theorem mk_expect (o : Option α) : Errs P (expect o) := by cases o <;> exact ⟨fun e h => (by cases h), fun h => (by cases h)⟩
theorem mk_idx (l : List α) (i : Nat) : Errs P (idx l i) := by
  unfold idx; split <;> exact ⟨fun e h => (by cases h), fun h => (by cases h)⟩
theorem mk_aidx (l : Array α) (i : Nat) : Errs P (aidx l i) := by
  unfold aidx; split <;> exact ⟨fun e h => (by cases h), fun h => (by cases h)⟩
theorem mk_setIdx (l : List α) (i : Nat) (a : α) : Errs P (setIdx l i a) := by
  unfold setIdx; split <;> exact ⟨fun e h => (by cases h), fun h => (by cases h)⟩
theorem mk_sliceM (l : List α) (i j : Nat) : Errs P (sliceM l i j) := by
  unfold sliceM; split <;> exact ⟨fun e h => (by cases h), fun h => (by cases h)⟩
theorem mk_usub (p : Profile) (a b : Nat) : Errs P (usub p a b) := by
  unfold usub; split <;> (try split) <;> exact ⟨fun e h => (by cases h), fun h => (by cases h)⟩
theorem mk_uadd (p : Profile) (a b : Nat) : Errs P (uadd p a b) := by
  unfold uadd; split <;> (try split) <;> exact ⟨fun e h => (by cases h), fun h => (by cases h)⟩
theorem mk_outSize (p : Profile) (a b : Nat) : Errs P (outSize p a b) := by
  unfold outSize; split <;> (try split) <;> exact ⟨fun e h => (by cases h), fun h => (by cases h)⟩
theorem mk_i32 (p : Profile) (z : Int) : Errs P (i32 p z) := by
  unfold i32; split <;> (try split) <;> exact ⟨fun e h => (by cases h), fun h => (by cases h)⟩
theorem mk_pow2 (p : Profile) (z : Int) : Errs P (pow2 p z) := by
  unfold pow2; split <;> (try split) <;> exact ⟨fun e h => (by cases h), fun h => (by cases h)⟩
theorem mk_zip {F : Type} (f : F → F → F) (a b : Mat F) : Errs P (Mat.zip f a b) := by
  unfold Mat.zip; split <;> exact ⟨fun e h => (by cases h), fun h => (by cases h)⟩
theorem mk_sliceCols {F : Type} (m : Mat F) (a b : Nat) : Errs P (m.sliceCols a b) := by
  unfold Mat.sliceCols; split <;> exact ⟨fun e h => (by cases h), fun h => (by cases h)⟩
theorem mono {Q : VisqolError → Prop} {x : M α} (h : Errs P x) (hpq : ∀ e, P e → Q e) : Errs Q x :=
  ⟨fun e he => hpq e (h.out e he), h.ext⟩
/-- A computation that returns no error value succeeds or panics. -/
theorem panics {x : M α} (h : Errs (fun _ => False) x) {e : Fail} (he : x = .error e) : ∃ q, e = .panic q := by
  cases e with
  | panic q => exact ⟨q, rfl⟩
  | err v => exact (h.out v he).elim
  | external => exact (h.ext he).elim

end Errs

/-- Close goals `Errs P x` by following the structure of `x`, using the given lemmas for called functions. -/
syntax "errs" ("[" term,* "]")? : tactic

macro_rules
  | `(tactic| errs [$ts,*]) => do
    let ts := ts.getElems
    `(tactic| repeat (first
      | intro _
      | with_reducible exact Errs.mk_ok _ | with_reducible exact Errs.mk_pure _ | with_reducible exact Errs.mk_panic _
      | with_reducible exact Errs.mk_expect _ | with_reducible exact Errs.mk_idx _ _
      | with_reducible exact Errs.mk_aidx _ _ | with_reducible exact Errs.mk_setIdx _ _ _
      | with_reducible exact Errs.mk_sliceM _ _ _ | with_reducible exact Errs.mk_usub _ _ _
      | with_reducible exact Errs.mk_uadd _ _ _ | with_reducible exact Errs.mk_outSize _ _ _
      | with_reducible exact Errs.mk_i32 _ _ | with_reducible exact Errs.mk_pow2 _ _
      | with_reducible exact Errs.mk_zip _ _ _ | with_reducible exact Errs.mk_sliceCols _ _ _
      | assumption
      | first $[| with_reducible apply $ts]*
      | with_reducible apply Errs.mk_bind | with_reducible apply Errs.mk_mapE | with_reducible apply Errs.mk_foldE
      | split))
  | `(tactic| errs) => `(tactic| errs [Errs.mk_ok])

section
variable {F : Type} [Flt F] {P : VisqolError → Prop}

theorem errs_nextPowTwo (p : Profile) (n : Nat) : Errs P (nextPowTwo p n) := by unfold nextPowTwo; errs
theorem errs_fftNew (p : Profile) (n : Nat) : Errs P (FftManager.new p n) :=
  Errs.mk_bind (errs_nextPowTwo p n) fun _ => Errs.mk_ok _
theorem errs_convCell (a b : Array F) (x y z u v : Nat) : Errs P (convCell a b x y z u v) := by unfold convCell; errs
theorem errs_conv2d (p : Profile) (a b : Mat F) : Errs P (conv2d p a b) := by
  unfold conv2d; errs [errs_convCell]
theorem errs_simMap (p : Profile) (a b : Mat F) : Errs P (simMap p a b) := by
  unfold simMap; errs [errs_conv2d]
theorem errs_measure (p : Profile) (a b : Mat F) : Errs P (measurePatchSimilarity p a b) := by
  unfold measurePatchSimilarity; errs [errs_simMap]
theorem errs_normalize (l : List F) : Errs P (normalizeSignal l) := by unfold normalizeSignal; errs
theorem errs_extract (c : Nat) (l : List F) : Errs P (extractMultichannel c l) := by unfold extractMultichannel; errs
theorem errs_applyBand (fb : FilterBank F) (b : Nat) (i : List F) : Errs P (fb.applyBand b i) := by
  unfold FilterBank.applyBand; errs
theorem errs_applyFilter (fb : FilterBank F) (b : Nat) (i : List F) : Errs P (fb.applyFilter b i) := by
  unfold FilterBank.applyFilter; errs [errs_applyBand]
theorem errs_frameEnergies (n : Nat) (r : List (List F)) : Errs P (frameEnergies n r) := by unfold frameEnergies; errs
theorem errs_processFrame (nb : Nat) (fb : FilterBank F) (f : List F) : Errs P (processFrame nb fb f) := by
  unfold processFrame; errs [errs_applyFilter, errs_frameEnergies]
theorem errs_sort (l : List F) : Errs P (sortFreqs l) := by unfold sortFreqs; errs
theorem errs_assemble (a b : Nat) (c : List (List F)) : Errs P (assembleColumns a b c) := by unfold assembleColumns; errs

/-- The spectrogram builder only reports too few samples, with the actual numbers. -/
theorem errs_build {nb : Nat} {fb : FilterBank F} {s : AudioSignal F} {w : AnalysisWindow F}
    (h : s.data.length < w.size → P (.tooFewSamples s.data.length w.size)) : Errs P (buildSpectrogram nb fb s w) := by
  unfold buildSpectrogram
  dsimp only
  split
  · exact Errs.mk_err (h ‹_›)
  · errs [errs_processFrame, errs_assemble, errs_sort]

theorem errs_frameFloor (t : F) (a b : Mat F) (j : Nat) : Errs P (frameFloor t a b j) := by unfold frameFloor; errs
theorem errs_raise (t : F) (a b : Mat F) : Errs P (raiseFloorPerFrame t a b) := by
  unfold raiseFloorPerFrame; errs [errs_frameFloor]
theorem errs_getMinimum (a : Mat F) : Errs P (getMinimum a) := by unfold getMinimum; errs
theorem errs_prepare (a b : Mat F) : Errs P (prepareSpectrograms a b) := by
  unfold prepareSpectrograms; errs [errs_raise, errs_getMinimum]

theorem errs_voice (s : List F) (a b c : Nat) : Errs P (voiceActivity s a b c) := by unfold voiceActivity; errs
theorem errs_vadIndices (p : Profile) (n c : Nat) (r : AudioSignal F) (w : AnalysisWindow F) :
    Errs P (vadPatchIndices p n c r w) := by
  unfold vadPatchIndices; errs [errs_normalize, errs_voice]

theorem errs_imageIndices {n c : Nat} (h : c < n + n / 2 → P (.referenceSpectrogramTooSmall c (n - n / 2))) :
    Errs P (imagePatchIndices n c) := by
  unfold imagePatchIndices
  dsimp only
  split
  · exact Errs.mk_err (h ‹_›)
  · exact Errs.mk_ok _

theorem errs_indices {p : Profile} {pc : PatchCreator} {c : Nat} {r : AudioSignal F} {w : AnalysisWindow F}
    (h : ∀ n, pc = .image n → c < n + n / 2 → P (.referenceSpectrogramTooSmall c (n - n / 2))) :
    Errs P (pc.indices p c r w) := by
  cases pc with
  | vad n => exact errs_vadIndices ..
  | image n => exact errs_imageIndices (h n rfl)

theorem errs_createPatches (n : Nat) (m : Mat F) (i : List Nat) : Errs P (createPatches n m i) := by
  unfold createPatches; errs

theorem errs_maxByAbs (l : List F) : Errs P (maxByAbs l) := by
  cases l with
  | nil => exact Errs.mk_ok _
  | cons a l => unfold maxByAbs; errs

theorem calcMaxLoop_ne_zero {p : Profile} {ix : List Nat} {a b : Nat} : ∀ {k n : Nat},
    calcMaxNumPatchesLoop p ix a b k = .ok n → n ≠ 0
  | 0, n, h => by unfold calcMaxNumPatchesLoop at h; cases p <;> cases h
  | k + 1, n, h => by
    obtain ⟨i, _, h⟩ := bind_ok h
    obtain ⟨d, _, h⟩ := bind_ok h
    split at h
    · exact calcMaxLoop_ne_zero h
    · cases h; omega

theorem errs_calcMaxLoop (p : Profile) (ix : List Nat) (a b : Nat) : ∀ k, Errs P (calcMaxNumPatchesLoop p ix a b k)
  | 0 => by unfold calcMaxNumPatchesLoop; cases p <;> exact Errs.mk_panic _
  | k + 1 => by
    unfold calcMaxNumPatchesLoop
    have := errs_calcMaxLoop p ix a b k
    errs

theorem errs_calcMax (p : Profile) (ix : List Nat) (a b : Nat) : Errs P (calcMaxNumPatches p ix a b) := by
  unfold calcMaxNumPatches; split
  · exact Errs.mk_ok _
  · exact errs_calcMaxLoop ..

theorem errs_buildDeg (m : Mat F) (a b : Nat) : Errs P (buildDegradedPatch m a b) := by
  unfold buildDegradedPatch; errs

theorem errs_backScan (prev : List F) (lower : Int) : ∀ (n : Nat) (b : Int) (best : F × Int), (b - lower + 1).toNat = n →
    Errs P (backScan prev lower b best) := by
  intro n
  induction n using Nat.strongRecOn with
  | ind n ih =>
    intro b best hn
    unfold backScan
    split
    · refine Errs.mk_bind (Errs.mk_idx _ _) fun v => ih _ ?_ _ _ rfl
      omega
    · exact Errs.mk_ok _

theorem errs_dpCell (p : Profile) (prev : Option (Nat × List F)) (sw : Int) (o : Nat) (sim : F) :
    Errs P (dpCell p prev sw o sim) := by
  unfold dpCell; errs [errs_backScan]
  · rfl
  · errs

theorem errs_slideLoop {σ : Type} {hi : Int} {nc : Nat} {body : σ → Nat → M σ} (h : ∀ s o, Errs P (body s o)) :
    ∀ (n : Nat) (o : Int) (s : σ), (hi + 1 - o).toNat = n → Errs P (slideLoop hi nc body o s) := by
  intro n
  induction n using Nat.strongRecOn with
  | ind n ih =>
    intro o s hn
    unfold slideLoop
    split
    · split
      · exact ih _ (by omega) _ _ rfl
      · split
        · exact Errs.mk_ok _
        · exact Errs.mk_bind (h _ _) fun s' => ih _ (by omega) _ _ rfl
    · exact Errs.mk_ok _

theorem errs_findOne (p : Profile) (nc : Nat) (rp : Mat F) (dps : List (Mat F)) (prev : Option (Nat × List F)) (ri : Nat)
    (sw : Int) : Errs P (findMostOptimalDegPatch p nc rp dps prev ri sw) := by
  unfold findMostOptimalDegPatch
  refine Errs.mk_bind (Errs.mk_i32 _ _) fun lo => Errs.mk_bind (Errs.mk_i32 _ _) fun hi => errs_slideLoop ?_ _ _ _ rfl
  errs [errs_measure, errs_dpCell]

theorem errs_dpRows (p : Profile) (nc : Nat) (dps : List (Mat F)) (sw : Int) : ∀ (l : List (Mat F × Nat)) (prev),
    Errs P (dpRows p nc dps sw prev l)
  | [], _ => Errs.mk_ok _
  | (m, i) :: l, prev => by
    unfold dpRows
    exact Errs.mk_bind (errs_findOne ..) fun r => Errs.mk_bind (errs_dpRows p nc dps sw l _) fun _ => Errs.mk_ok _

theorem errs_lastScan (row : List F) : ∀ (l : List Nat) (b : F × Nat), Errs P (lastOffsetScan row l b)
  | [], _ => Errs.mk_ok _
  | o :: l, b => by
    unfold lastOffsetScan
    exact Errs.mk_bind (Errs.mk_idx _ _) fun v => errs_lastScan row l _

theorem errs_step (p : Profile) (deg : Mat F) (a b : F) (rp : Mat F) (ri : Nat) (bt : List Nat) (o : Nat) :
    Errs P (backtraceStep p deg a b rp ri bt o) := by
  unfold backtraceStep; errs [errs_buildDeg, errs_measure]

theorem errs_backtrack (p : Profile) (deg : Mat F) (a b : F) : ∀ (l : List (Mat F × Nat × List Nat)) (o : Nat),
    Errs P (backtrack p deg a b l o)
  | [], _ => Errs.mk_ok _
  | (m, i, bt) :: l, o => by
    unfold backtrack
    exact Errs.mk_bind (errs_step ..) fun r => Errs.mk_bind (errs_backtrack p deg a b l _) fun _ => Errs.mk_ok _

/-- Coarse matching never returns an error value: `SignalsTooDifferent` needs a patch count of zero for a non-empty list
of indices, which the counting loop cannot produce, or an empty list of indices. -/
theorem errs_find (p : Profile) (rps : List (Mat F)) (ix : List Nat) (deg : Mat F) (fd : F) (radius : Int)
    (h : ix = [] → rps = []) : Errs P (findMostOptimalDegPatches p rps ix deg fd radius) := by
  unfold findMostOptimalDegPatches
  refine Errs.mk_bind' (Errs.mk_idx _ _) fun first hf => ?_
  have hix : ix ≠ [] := by
    intro h0
    have := h h0
    subst this
    exact absurd (idx_ok_lt hf) (by simp)
  refine Errs.mk_bind (Errs.mk_i32 _ _) fun sw => Errs.mk_bind' (errs_calcMax _ _ _ _) fun n hn => ?_
  have hn0 : n ≠ 0 := by
    unfold calcMaxNumPatches at hn
    rw [if_neg (by simpa using hix)] at hn
    exact calcMaxLoop_ne_zero hn
  rw [if_neg hn0]
  errs [errs_buildDeg, errs_dpRows, errs_lastScan, errs_backtrack]

theorem errs_sliceSignal (s : AudioSignal F) (a b : F) : Errs P (sliceSignal s a b) := by
  unfold sliceSignal; errs

theorem errs_perPatchMean (sel : PatchSim F → List F) (ps : List (PatchSim F)) : Errs P (perPatchMean sel ps) := by
  unfold perPatchMean addBands; errs

theorem errs_stdContribution (p : Profile) (fd : F) (st : List F × Nat) (q : PatchSim F) :
    Errs P (stdContribution p fd st q) := by
  unfold stdContribution; errs

theorem errs_perPatchStd (p : Profile) (ps : List (PatchSim F)) (fd : F) : Errs P (perPatchStdDevs p ps fd) := by
  unfold perPatchStdDevs
  refine Errs.mk_bind (errs_perPatchMean ..) fun fvn => Errs.mk_bind (Errs.mk_idx _ _) fun first =>
    Errs.mk_bind (Errs.mk_foldE (fun s a => errs_stdContribution ..) _ _) fun r => Errs.mk_ok _

theorem errs_predict (q : QualityMapper F) (v : List F) : Errs P (q.predict v) := by
  cases q with
  | speech s => exact Errs.mk_ok _
  | svr m =>
    unfold QualityMapper.predict svrPredict; errs

theorem load_err {c : WavContent} {e : VisqolError} (h : loadAsMono (F := F) c = .error (.err e)) :
    ∃ ch sr bits s, c = .wav ch sr bits s ∧ bits ≠ 16 ∧ e = .invalidBitsPerSample bits := by
  unfold loadAsMono at h
  rcases bind_error h with h | ⟨w, _, h⟩
  · cases c with
    | unreadable => cases h
    | wav ch sr bits s =>
      unfold WavFile.open at h
      dsimp only at h
      split at h
      · rename_i hb; cases h; exact ⟨_, _, _, _, rfl, hb, rfl⟩
      · refine (Errs.out (P := fun _ => False) ?_ e h).elim
        errs
  · refine (Errs.out (P := fun _ => False) ?_ e h).elim
    exact Errs.mk_bind (errs_extract ..) fun _ => Errs.mk_ok _

theorem errs_validate {r d : AudioSignal F}
    (h : r.sampleRate ≠ d.sampleRate → P (.differentSampleRates r.sampleRate d.sampleRate)) :
    Errs P (validateInputAudio r d) := by
  unfold validateInputAudio
  split
  · exact Errs.mk_err (h ‹_›)
  · exact Errs.mk_ok _

variable [RustFft F]

theorem errs_fwd (p : Profile) (m : FftManager) (s : List F) (n : Nat) : Errs P (forward1dFromPoints p m s n) := by
  unfold forward1dFromPoints; errs
theorem errs_inverse (m : FftManager) (s : List (Cpx F)) : Errs P (inverse1d m s) := by
  unfold inverse1d; dsimp only; errs
theorem errs_scaling (a b : Nat) : Errs P (hilbertScaling (F := F) a b) := by
  unfold hilbertScaling; dsimp only; errs
theorem errs_hilbert (p : Profile) (s : List F) : Errs P (calculateHilbert p s) := by
  unfold calculateHilbert; errs [errs_fftNew, errs_scaling, errs_inverse]
theorem errs_env (p : Profile) (s : List F) : Errs P (calculateUpperEnv p s) := by
  unfold calculateUpperEnv; split
  · exact Errs.mk_ok _
  · exact Errs.mk_bind (errs_hilbert ..) fun _ => Errs.mk_ok _
theorem errs_pointwise (p : Profile) (m : FftManager) (a b : List F) (n : Nat) : Errs P (fftPointwiseProduct p m a b n) := by
  unfold fftPointwiseProduct; errs [errs_fwd]
theorem errs_inversePw (p : Profile) (a b : List F) : Errs P (inverseFftPointwiseProduct p a b) := by
  unfold inverseFftPointwiseProduct; dsimp only; errs [errs_fftNew, errs_pointwise, errs_inverse]
theorem errs_lag (p : Profile) (a b : List F) : Errs P (calculateBestLag p a b) := by
  unfold calculateBestLag; errs [errs_inversePw, errs_maxByAbs]
theorem errs_globallyAlign (p : Profile) (a b : AudioSignal F) : Errs P (globallyAlign p a b) := by
  unfold globallyAlign; errs [errs_env, errs_lag]
theorem errs_alignTruncate (p : Profile) (a b : AudioSignal F) : Errs P (alignAndTruncate p a b) := by
  unfold alignAndTruncate; errs [errs_globallyAlign]

theorem errs_finePatch {p : Profile} {nb : Nat} {ref deg : AudioSignal F} {w : AnalysisWindow F}
    {fb : FilterBank F} {r : PatchSim F} (h1 : P .failedToAlignSignals) (h2 : ∀ n, n < w.size → P (.tooFewSamples n w.size)) :
    Errs P (finelyAlignPatch p nb ref deg w fb r) := by
  unfold finelyAlignPatch
  split
  · exact Errs.mk_ok _
  · refine Errs.mk_bind (errs_sliceSignal ..) fun ra => Errs.mk_bind (errs_sliceSignal ..) fun da =>
      Errs.mk_bind (errs_alignTruncate ..) fun o => ?_
    split
    · exact Errs.mk_err h1
    · refine Errs.mk_bind (errs_build (h2 _)) fun x => Errs.mk_bind (errs_build (h2 _)) fun y =>
        Errs.mk_bind (errs_prepare ..) fun z => Errs.mk_bind (errs_measure ..) fun n => ?_
      split <;> exact Errs.mk_ok _

theorem errs_fine {p : Profile} {nb : Nat} {ref deg : AudioSignal F} {w : AnalysisWindow F}
    (h1 : P .failedToAlignSignals) (h2 : ∀ n, n < w.size → P (.tooFewSamples n w.size)) :
    ∀ (rs : List (PatchSim F)) (fb : FilterBank F), Errs P (finelyAlign p nb ref deg w fb rs)
  | [], _ => Errs.mk_ok _
  | r :: rs, fb => by
    unfold finelyAlign
    exact Errs.mk_bind (errs_finePatch h1 h2) fun x => Errs.mk_bind (errs_fine h1 h2 rs _) fun _ => Errs.mk_ok _

theorem errs_calculateSimilarity {p : Profile} {nb : Nat} {fb : FilterBank F} {ref deg : AudioSignal F}
    {w : AnalysisWindow F} {pc : PatchCreator} {q : QualityMapper F} {sw : Nat}
    (h1 : P .failedToAlignSignals) (h2 : ∀ n, n < w.size → P (.tooFewSamples n w.size))
    (h3 : ∀ c n, pc = .image n → c < n + n / 2 → P (.referenceSpectrogramTooSmall c (n - n / 2))) :
    Errs P (calculateSimilarity p nb fb ref deg w pc q sw) := by
  unfold calculateSimilarity
  dsimp only
  refine Errs.mk_bind (errs_build (h2 _)) fun x => Errs.mk_bind (errs_build (h2 _)) fun y =>
    Errs.mk_bind (errs_prepare ..) fun z => ?_
  refine Errs.mk_bind (errs_indices (h3 _)) fun ix => ?_
  refine Errs.mk_bind' (errs_createPatches _ _ _) fun ps hps => ?_
  have hnil : ix = [] → ps = [] := by
    intro h0; subst h0; unfold createPatches mapE at hps; cases hps; rfl
  refine Errs.mk_bind (errs_find _ _ _ _ _ _ hnil) fun coarse => Errs.mk_bind (errs_fine h1 h2 _ _) fun f =>
    Errs.mk_bind (errs_perPatchMean ..) fun _ => Errs.mk_bind (errs_perPatchStd ..) fun _ =>
    Errs.mk_bind (errs_perPatchMean ..) fun _ => Errs.mk_bind (errs_predict ..) fun _ =>
    Errs.mk_bind (Errs.mk_expect _) fun _ => Errs.mk_ok _

/-- The errors a comparison can return. -/
theorem errs_computeResults {p : Profile} {m : Manager F} {ref deg : AudioSignal F}
    (h1 : P .failedToAlignSignals)
    (h2 : ∀ n, n < (AnalysisWindow.mk' (F := F) ref.sampleRate 0.25 0.08).size →
      P (.tooFewSamples n (AnalysisWindow.mk' (F := F) ref.sampleRate 0.25 0.08).size))
    (h3 : ∀ c n, m.patchCreator = .image n → c < n + n / 2 → P (.referenceSpectrogramTooSmall c (n - n / 2))) :
    Errs P (m.computeResults p ref deg) := by
  unfold Manager.computeResults
  refine Errs.mk_bind (errs_globallyAlign ..) fun o => ?_
  split
  · exact Errs.mk_err h1
  · dsimp only
    exact Errs.mk_bind (errs_calculateSimilarity h1 h2 h3) fun x => Errs.mk_ok _

end

end Visqol
