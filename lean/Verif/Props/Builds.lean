import Verif.Model.Cli

/-! # Debug and release builds agree

A debug build stops at an integer overflow, a release build goes on with the wrapped value.  Everything else is the
same: whatever a debug build returns, the release build returns too. -/

namespace Visqol
variable {F : Type} [Flt F]

/-- `a` is what a debug build does and `b` what a release build does: the same, unless the debug build stopped at an
overflow. -/
def Agree {α : Type} (a b : M α) : Prop := a = .error (.panic .overflow) ∨ a = b

namespace Agree

theorem rfl' {α : Type} (a : M α) : Agree a a := .inr rfl

theorem bind {α β : Type} {a b : M α} {f g : α → M β} (h : Agree a b) (hf : ∀ x, Agree (f x) (g x)) :
    Agree (a >>= f) (b >>= g) := by
  rcases h with h | h
  · exact .inl (by rw [h]; rfl)
  · subst h
    cases a with
    | error e => exact .inr rfl
    | ok x => exact hf x

theorem bindSame {α β : Type} {a : M α} {f g : α → M β} (hf : ∀ x, Agree (f x) (g x)) :
    Agree (a >>= f) (a >>= g) := bind (rfl' a) hf

theorem mapE {α β : Type} {f g : α → M β} (h : ∀ x, Agree (f x) (g x)) :
    ∀ l : List α, Agree (Visqol.mapE f l) (Visqol.mapE g l)
  | [] => rfl' _
  | a :: l => bind (h a) fun _ => bind (mapE h l) fun _ => rfl' _

theorem foldE {α σ : Type} {f g : σ → α → M σ} (h : ∀ s x, Agree (f s x) (g s x)) :
    ∀ (l : List α) (s : σ), Agree (Visqol.foldE f s l) (Visqol.foldE g s l)
  | [], _ => rfl' _
  | a :: l, s => bind (h s a) fun s' => foldE h l s'

theorem slideLoop {σ : Type} {hi : Int} {ncols : Nat} {f g : σ → Nat → M σ} (h : ∀ s x, Agree (f s x) (g s x))
    (o : Int) (s : σ) : Agree (Visqol.slideLoop hi ncols f o s) (Visqol.slideLoop hi ncols g o s) := by
  rw [Visqol.slideLoop, Visqol.slideLoop.eq_def hi ncols g o s]
  by_cases h1 : o ≤ hi
  · rw [if_pos h1, if_pos h1]
    by_cases h2 : o < 0
    · rw [if_pos h2, if_pos h2]
      exact slideLoop h 0 s
    · rw [if_neg h2, if_neg h2]
      by_cases h3 : o = (ncols : Int)
      · rw [if_pos h3, if_pos h3]; exact rfl' _
      · rw [if_neg h3, if_neg h3]
        exact bind (h s _) fun s' => slideLoop h (o + 1) s'
  · rw [if_neg h1, if_neg h1]; exact rfl' _
termination_by (hi + 1 - o).toNat
decreasing_by all_goals omega

end Agree

open Agree

theorem agree_usub (a b : Nat) : Agree (usub .checked a b) (usub .wrapping a b) := by
  unfold usub; split
  · exact rfl' _
  · exact .inl rfl

theorem agree_uadd (a b : Nat) : Agree (uadd .checked a b) (uadd .wrapping a b) := by
  unfold uadd; split
  · exact rfl' _
  · exact .inl rfl

theorem agree_i32 (z : Int) : Agree (i32 .checked z) (i32 .wrapping z) := by
  unfold i32; split
  · exact rfl' _
  · exact .inl rfl

theorem agree_outSize (a b : Nat) : Agree (outSize .checked a b) (outSize .wrapping a b) := by
  unfold outSize; split
  · exact rfl' _
  · exact .inl rfl

theorem agree_pow2 (e : Int) : Agree (pow2 .checked e) (pow2 .wrapping e) := by
  unfold pow2; split
  · exact rfl' _
  · exact .inl rfl

theorem agree_nextPowTwo (n : Nat) : Agree (nextPowTwo .checked n) (nextPowTwo .wrapping n) :=
  bind (agree_usub _ _) fun _ => agree_uadd _ _

theorem agree_conv2d (filt m : Mat F) : Agree (conv2d .checked filt m) (conv2d .wrapping filt m) :=
  bind (agree_outSize _ _) fun _ => bind (agree_outSize _ _) fun _ => rfl' _

theorem agree_simMap (ref deg : Mat F) : Agree (simMap .checked ref deg) (simMap .wrapping ref deg) :=
  bind (agree_conv2d _ _) fun _ => bind (agree_conv2d _ _) fun _ => bindSame fun _ => bindSame fun _ =>
  bindSame fun _ => bindSame fun _ => bindSame fun _ => bind (agree_conv2d _ _) fun _ => bindSame fun _ =>
  bind (agree_conv2d _ _) fun _ => bindSame fun _ => bindSame fun _ => bind (agree_conv2d _ _) fun _ => rfl' _

theorem agree_measure (ref deg : Mat F) :
    Agree (measurePatchSimilarity .checked ref deg) (measurePatchSimilarity .wrapping ref deg) :=
  bind (agree_simMap _ _) fun _ => rfl' _

theorem agree_calcMaxLoop (ix : List Nat) (nd pp : Nat) :
    ∀ n, Agree (calcMaxNumPatchesLoop .checked ix nd pp n) (calcMaxNumPatchesLoop .wrapping ix nd pp n)
  | 0 => .inl rfl
  | n + 1 => bindSame fun _ => bind (agree_usub _ _) fun _ => by
      split
      · exact agree_calcMaxLoop ix nd pp n
      · exact rfl' _

theorem agree_calcMax (ix : List Nat) (nd pp : Nat) :
    Agree (calcMaxNumPatches .checked ix nd pp) (calcMaxNumPatches .wrapping ix nd pp) := by
  unfold calcMaxNumPatches
  split
  · exact rfl' _
  · exact agree_calcMaxLoop _ _ _ _

theorem agree_dpCell (prev : Option (Nat × List F)) (sw : Int) (o : Nat) (s : F) :
    Agree (dpCell .checked prev sw o s) (dpCell .wrapping prev sw o s) := by
  unfold dpCell
  cases prev with
  | none => exact rfl' _
  | some q =>
    obtain ⟨i, row⟩ := q
    dsimp only
    refine Agree.bind (agree_i32 (wrapI32 i - sw)) fun _ => ?_
    exact rfl' _

theorem agree_findOne (ncols : Nat) (rp : Mat F) (dps : List (Mat F)) (prev : Option (Nat × List F)) (i : Nat) (sw : Int) :
    Agree (findMostOptimalDegPatch .checked ncols rp dps prev i sw) (findMostOptimalDegPatch .wrapping ncols rp dps prev i sw) := by
  unfold findMostOptimalDegPatch
  refine Agree.bind (agree_i32 (wrapI32 i - sw)) fun lo => ?_
  refine Agree.bind (agree_i32 (wrapI32 i + sw)) fun hi => ?_
  refine Agree.slideLoop (fun st o => ?_) _ _
  refine Agree.bindSame fun d => ?_
  refine Agree.bind (agree_measure rp d) fun s => ?_
  refine Agree.bind (agree_dpCell prev sw o s.similarity) fun _ => ?_
  exact rfl' _

theorem agree_dpRows (ncols : Nat) (dps : List (Mat F)) (sw : Int) :
    ∀ (l : List (Mat F × Nat)) (prev : Option (Nat × List F)),
      Agree (dpRows .checked ncols dps sw prev l) (dpRows .wrapping ncols dps sw prev l)
  | [], _ => rfl' _
  | (patch, i) :: rest, prev => by
      rw [dpRows, dpRows]
      refine Agree.bind (agree_findOne ncols patch dps prev i sw) fun r => ?_
      refine Agree.bind (agree_dpRows ncols dps sw rest (some (i, r.1))) fun _ => ?_
      exact rfl' _

theorem agree_backStep (deg : Mat F) (fd pd : F) (rp : Mat F) (i : Nat) (bt : List Nat) (o : Nat) :
    Agree (backtraceStep .checked deg fd pd rp i bt o) (backtraceStep .wrapping deg fd pd rp i bt o) :=
  bindSame fun _ => bind (agree_measure _ _) fun _ => rfl' _

theorem agree_backtrack (deg : Mat F) (fd pd : F) : ∀ (l : List (Mat F × Nat × List Nat)) (o : Nat),
    Agree (backtrack .checked deg fd pd l o) (backtrack .wrapping deg fd pd l o)
  | [], _ => rfl' _
  | (_, _, _) :: rest, _ => bind (agree_backStep _ _ _ _ _ _ _) fun _ =>
      bind (agree_backtrack deg fd pd rest _) fun _ => rfl' _

theorem agree_find (rps : List (Mat F)) (ix : List Nat) (deg : Mat F) (fd : F) (radius : Int) :
    Agree (findMostOptimalDegPatches .checked rps ix deg fd radius) (findMostOptimalDegPatches .wrapping rps ix deg fd radius) := by
  unfold findMostOptimalDegPatches
  refine Agree.bindSame fun first => ?_
  dsimp only
  refine Agree.bind (agree_i32 (radius * wrapI32 first.ncols)) fun sw => ?_
  refine Agree.bind (agree_calcMax ix deg.ncols first.ncols) fun n => ?_
  by_cases hn : n = 0
  · rw [if_pos hn, if_pos hn]; exact rfl' _
  · rw [if_neg hn, if_neg hn]
    refine Agree.bindSame fun dps => ?_
    refine Agree.bind (agree_dpRows deg.ncols dps sw (rps.zip ix) none) fun rows => ?_
    refine Agree.bindSame fun li => ?_
    refine Agree.bind (agree_i32 (wrapI32 li - sw)) fun lower => ?_
    refine Agree.bind (agree_uadd li (i32ToUsize sw)) fun up => ?_
    refine Agree.bind (agree_uadd up 1) fun up => ?_
    refine Agree.bindSame fun lr => ?_
    refine Agree.bindSame fun best => ?_
    exact agree_backtrack deg fd _ _ _

theorem agree_vad (ps nc : Nat) (ref : AudioSignal F) (w : AnalysisWindow F) :
    Agree (vadPatchIndices .checked ps nc ref w) (vadPatchIndices .wrapping ps nc ref w) :=
  bindSame fun _ => bind (agree_usub _ _) fun _ => bind (agree_usub _ _) fun _ => rfl' _

theorem agree_indices (pc : PatchCreator) (nc : Nat) (ref : AudioSignal F) (w : AnalysisWindow F) :
    Agree (pc.indices .checked nc ref w) (pc.indices .wrapping nc ref w) := by
  cases pc with
  | vad n => exact agree_vad _ _ _ _
  | image n => exact rfl' _

theorem agree_std (fd : F) (st : List F × Nat) (q : PatchSim F) :
    Agree (stdContribution .checked fd st q) (stdContribution .wrapping fd st q) :=
  bind (Agree.mapE (fun _ => bindSame fun _ => bindSame fun _ => bind (agree_usub _ _) fun _ => rfl' _) _) fun _ => rfl' _

theorem agree_stds (ps : List (PatchSim F)) (fd : F) :
    Agree (perPatchStdDevs .checked ps fd) (perPatchStdDevs .wrapping ps fd) :=
  bindSame fun _ => bindSame fun _ => bind (Agree.foldE (fun _ _ => agree_std _ _ _) _ _) fun _ => rfl' _

theorem agree_fftNew (n : Nat) : Agree (FftManager.new .checked n) (FftManager.new .wrapping n) :=
  bind (agree_nextPowTwo n) fun _ => rfl' _

variable [RustFft F]

theorem agree_forward (m : FftManager) (s : List F) (k : Nat) :
    Agree (forward1dFromPoints .checked m s k) (forward1dFromPoints .wrapping m s k) :=
  bind (agree_usub _ _) fun _ => rfl' _

theorem agree_hilbert (s : List F) : Agree (calculateHilbert .checked s) (calculateHilbert .wrapping s) :=
  bind (agree_fftNew _) fun _ => rfl' _

theorem agree_env (s : List F) : Agree (calculateUpperEnv .checked s) (calculateUpperEnv .wrapping s) := by
  unfold calculateUpperEnv
  cases meanOpt s with
  | none => exact rfl' _
  | some m => exact bind (agree_hilbert _) fun _ => rfl' _

theorem agree_product (m : FftManager) (s1 s2 : List F) (k : Nat) :
    Agree (fftPointwiseProduct .checked m s1 s2 k) (fftPointwiseProduct .wrapping m s1 s2 k) :=
  bind (agree_forward _ _ _) fun _ => bind (agree_forward _ _ _) fun _ => rfl' _

theorem agree_inverse (s1 s2 : List F) :
    Agree (inverseFftPointwiseProduct .checked s1 s2) (inverseFftPointwiseProduct .wrapping s1 s2) :=
  bind (agree_usub _ _) fun _ => bind (agree_pow2 _) fun _ => bind (agree_fftNew _) fun _ =>
    bind (agree_product _ _ _ _) fun _ => rfl' _

theorem agree_lag (s1 s2 : List F) : Agree (calculateBestLag .checked s1 s2) (calculateBestLag .wrapping s1 s2) :=
  bind (agree_usub _ _) fun _ => bind (agree_inverse _ _) fun _ => bind (agree_usub _ _) fun _ => rfl' _

theorem agree_align (ref deg : AudioSignal F) : Agree (globallyAlign .checked ref deg) (globallyAlign .wrapping ref deg) := by
  unfold globallyAlign
  refine bind (agree_env _) fun x => ?_
  cases x with
  | none => exact rfl' _
  | some x =>
    refine bind (agree_env _) fun y => ?_
    cases y with
    | none => exact rfl' _
    | some y => exact bind (agree_lag _ _) fun _ => rfl' _

theorem agree_truncate (ref deg : AudioSignal F) :
    Agree (alignAndTruncate .checked ref deg) (alignAndTruncate .wrapping ref deg) :=
  bind (agree_align _ _) fun _ => rfl' _

theorem agree_fineOne (nb : Nat) (ref deg : AudioSignal F) (w : AnalysisWindow F) (fb : FilterBank F) (r : PatchSim F) :
    Agree (finelyAlignPatch .checked nb ref deg w fb r) (finelyAlignPatch .wrapping nb ref deg w fb r) := by
  unfold finelyAlignPatch
  split
  · exact rfl' _
  · refine bindSame fun _ => bindSame fun _ => bind (agree_truncate _ _) fun x => ?_
    cases x with
    | none => exact rfl' _
    | some x => exact bindSame fun _ => bindSame fun _ => bindSame fun _ => bind (agree_measure _ _) fun _ => rfl' _

theorem agree_fine (nb : Nat) (ref deg : AudioSignal F) (w : AnalysisWindow F) : ∀ (l : List (PatchSim F)) (fb : FilterBank F),
    Agree (finelyAlign .checked nb ref deg w fb l) (finelyAlign .wrapping nb ref deg w fb l)
  | [], _ => rfl' _
  | _ :: rs, _ => bind (agree_fineOne _ _ _ _ _ _) fun _ => bind (agree_fine nb ref deg w rs _) fun _ => rfl' _

theorem agree_similarity (nb : Nat) (fb : FilterBank F) (ref deg : AudioSignal F) (w : AnalysisWindow F)
    (pc : PatchCreator) (mapper : QualityMapper F) (sw : Nat) :
    Agree (calculateSimilarity .checked nb fb ref deg w pc mapper sw)
      (calculateSimilarity .wrapping nb fb ref deg w pc mapper sw) :=
  bindSame fun _ => bindSame fun _ => bindSame fun _ => bind (agree_indices _ _ _ _) fun _ => bindSame fun _ =>
    bind (agree_find _ _ _ _ _) fun _ => bind (agree_fine _ _ _ _ _ _) fun _ => bindSame fun _ =>
    bind (agree_stds _ _) fun _ => rfl' _

theorem agree_compute (m : Manager F) (ref deg : AudioSignal F) :
    Agree (m.computeResults .checked ref deg) (m.computeResults .wrapping ref deg) := by
  unfold Manager.computeResults
  refine bind (agree_align _ _) fun x => ?_
  cases x with
  | none => exact rfl' _
  | some x => exact bind (agree_similarity _ _ _ _ _ _ _ _) fun _ => rfl' _

theorem agree_run (world : World F) (m : Manager F) (r d : String) :
    Agree (m.run .checked world r d) (m.run .wrapping world r d) :=
  bindSame fun _ => bindSame fun _ => bindSame fun _ => agree_compute _ _ _

theorem agree_batch (world : World F) : ∀ (l : List PathPair) (m : Manager F),
    Agree (runBatch .checked world m l) (runBatch .wrapping world m l)
  | [], _ => rfl' _
  | _ :: rest, _ => bind (agree_run _ _ _ _) fun _ => bind (agree_batch world rest _) fun _ => rfl' _

theorem agree_cli (world : World F) (csv : String → CsvContent) (a : CliArgs) :
    Agree (cliCompute .checked world csv a) (cliCompute .wrapping world csv a) :=
  bindSame fun _ => bindSame fun _ => bind (agree_batch _ _ _) fun _ => rfl' _

/-- C87: a debug build that does not stop at an integer overflow does exactly what the release build does, in one
comparison of signals, in one comparison of files, and in a batch. -/
theorem C87_debug (m : Manager F) :
    (∀ ref deg, m.computeResults .checked ref deg ≠ .error (.panic .overflow) →
      m.computeResults .wrapping ref deg = m.computeResults .checked ref deg) ∧
    (∀ world r d, m.run .checked world r d ≠ .error (.panic .overflow) →
      m.run .wrapping world r d = m.run .checked world r d) ∧
    ∀ world l, runBatch .checked world m l ≠ .error (.panic .overflow) →
      runBatch .wrapping world m l = runBatch .checked world m l :=
  ⟨fun _ _ h => ((agree_compute _ _ _).resolve_left h).symm, fun _ _ _ h => ((agree_run _ _ _ _).resolve_left h).symm,
    fun _ _ h => ((agree_batch _ _ _).resolve_left h).symm⟩

/-- C87: the same for the command-line tool (after argument parsing): either the debug build stops at an overflow before
anything has been written, or all files and all output are the same. -/
theorem C87_cli (world : World F) (csv : String → CsvContent) (writable : String → Bool) (a : CliArgs) :
    cliMain .checked world csv writable a = ([], .error (.panic .overflow)) ∨
      cliMain .checked world csv writable a = cliMain .wrapping world csv writable a := by
  unfold cliMain
  rcases agree_cli world csv a with h | h
  · exact .inl (by rw [h])
  · exact .inr (by rw [h])

/-- A concrete operation on which the two builds differ: the debug build stops, the release build goes on. -/
example : usub .checked 2 3 = .error (.panic .overflow) ∧ usub .wrapping 2 3 = .ok 18446744073709551615 := ⟨rfl, rfl⟩

end Visqol
