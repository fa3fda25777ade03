import Verif.Lemmas.Basic
import Verif.Model.Manager

/-! # The filterbank state does not influence results

Every spectrogram construction overwrites coefficients and conditions; only `minFreq` survives and is never changed. -/

namespace Visqol
variable {F : Type} [Flt F]

theorem buildSpectrogram_congr {fb fb' : FilterBank F} (h : fb.minFreq = fb'.minFreq) (nb : Nat)
    (s : AudioSignal F) (w : AnalysisWindow F) : buildSpectrogram nb fb s w = buildSpectrogram nb fb' s w := by
  unfold buildSpectrogram FilterBank.setCoeffs FilterBank.reset
  rw [h]

theorem applyBand_minFreq {fb fb' : FilterBank F} {band : Nat} {input out : List F}
    (h : fb.applyBand band input = .ok (fb', out)) : fb'.minFreq = fb.minFreq := by
  unfold FilterBank.applyBand at h
  obtain ⟨c, _, h⟩ := bind_ok h
  obtain ⟨z1, _, h⟩ := bind_ok h
  obtain ⟨z2, _, h⟩ := bind_ok h
  obtain ⟨z3, _, h⟩ := bind_ok h
  obtain ⟨z4, _, h⟩ := bind_ok h
  cases h; rfl

theorem applyFilter_minFreq {fb fb' : FilterBank F} {nb : Nat} {input : List F} {out : List (List F)}
    (h : fb.applyFilter nb input = .ok (fb', out)) : fb'.minFreq = fb.minFreq := by
  refine foldE_inv (fun st => st.1.minFreq = fb.minFreq) ?_ rfl h
  intro band _ t t' ht h
  obtain ⟨r, hr, h⟩ := bind_ok h
  cases h
  exact (applyBand_minFreq hr).trans ht

theorem processFrame_minFreq {fb fb' : FilterBank F} {nb : Nat} {frame e : List F}
    (h : processFrame nb fb frame = .ok (fb', e)) : fb'.minFreq = fb.minFreq := by
  obtain ⟨r, hr, h⟩ := bind_ok h
  obtain ⟨en, _, h⟩ := bind_ok h
  cases h
  exact applyFilter_minFreq (fb := fb.reset nb) (out := r.2) hr

theorem buildSpectrogram_minFreq {fb fb' : FilterBank F} {nb : Nat} {s : AudioSignal F} {w : AnalysisWindow F}
    {sp : Spectrogram F} (h : buildSpectrogram nb fb s w = .ok (fb', sp)) : fb'.minFreq = fb.minFreq := by
  unfold buildSpectrogram at h
  dsimp only at h
  split at h
  · cases h
  split at h
  · cases h
  split at h
  · cases h
  obtain ⟨r, hr, h⟩ := bind_ok h
  obtain ⟨m, _, h⟩ := bind_ok h
  obtain ⟨so, _, h⟩ := bind_ok h
  cases h
  refine foldE_inv (fun st => st.1.minFreq = fb.minFreq) ?_ rfl hr
  intro start _ t t' ht h
  obtain ⟨r, hr, h⟩ := bind_ok h
  cases h
  exact (processFrame_minFreq (e := r.2) hr).trans ht

variable [RustFft F]

/-- Forget the filterbank part of a result. -/
def dropState {σ α : Type} (x : M (σ × α)) : M α := x.map Prod.snd

@[simp] theorem dropState_ok {σ α : Type} (x : σ × α) : dropState (.ok x : M (σ × α)) = .ok x.2 := rfl
@[simp] theorem dropState_error {σ α : Type} (e : Fail) : dropState (.error e : M (σ × α)) = .error e := rfl

theorem dropState_eq_ok {σ α : Type} {x : M (σ × α)} {a : α} (h : dropState x = .ok a) : ∃ s, x = .ok (s, a) := by
  cases x with
  | error e => cases h
  | ok y => cases h; exact ⟨y.1, rfl⟩

theorem finelyAlignPatch_congr {fb fb' : FilterBank F} (h : fb.minFreq = fb'.minFreq) (p : Profile) (nb : Nat)
    (ref deg : AudioSignal F) (w : AnalysisWindow F) (r : PatchSim F) :
    dropState (finelyAlignPatch p nb ref deg w fb r) = dropState (finelyAlignPatch p nb ref deg w fb' r) := by
  unfold finelyAlignPatch
  split
  · rfl
  · cases sliceSignal ref r.refStart r.refEnd with
    | error e => rfl
    | ok ra =>
      simp only [ok_bind]
      cases sliceSignal deg r.degStart r.degEnd with
      | error e => rfl
      | ok da =>
        simp only [ok_bind]
        cases alignAndTruncate p ra da with
        | error e => rfl
        | ok o =>
          simp only [ok_bind]
          cases o with
          | none => rfl
          | some t =>
            simp only [buildSpectrogram_congr h]

theorem finelyAlignPatch_minFreq {fb fb' : FilterBank F} {p : Profile} {nb : Nat}
    {ref deg : AudioSignal F} {w : AnalysisWindow F} {r r' : PatchSim F}
    (h : finelyAlignPatch p nb ref deg w fb r = .ok (fb', r')) : fb'.minFreq = fb.minFreq := by
  unfold finelyAlignPatch at h
  split at h
  · cases h; rfl
  · obtain ⟨ra, _, h⟩ := bind_ok h
    obtain ⟨da, _, h⟩ := bind_ok h
    obtain ⟨o, _, h⟩ := bind_ok h
    cases o with
    | none => cases h
    | some t =>
      obtain ⟨⟨fb1, rs⟩, h1, h⟩ := bind_ok h
      obtain ⟨⟨fb2, ds⟩, h2, h⟩ := bind_ok h
      obtain ⟨ms, _, h⟩ := bind_ok h
      obtain ⟨n, _, h⟩ := bind_ok h
      have e : fb2.minFreq = fb.minFreq := (buildSpectrogram_minFreq h2).trans (buildSpectrogram_minFreq h1)
      dsimp only at h
      split at h <;> cases h <;> exact e

theorem finelyAlign_congr (p : Profile) (nb : Nat) (ref deg : AudioSignal F) (w : AnalysisWindow F) :
    ∀ (rs : List (PatchSim F)) (fb fb' : FilterBank F), fb.minFreq = fb'.minFreq →
    dropState (finelyAlign p nb ref deg w fb rs) = dropState (finelyAlign p nb ref deg w fb' rs)
  | [], _, _, _ => rfl
  | r :: rs, fb, fb', h => by
    have h1 := finelyAlignPatch_congr h p nb ref deg w r
    unfold finelyAlign
    cases e1 : finelyAlignPatch p nb ref deg w fb r with
    | error e =>
      rw [e1] at h1
      cases e2 : finelyAlignPatch p nb ref deg w fb' r with
      | error e' => rw [e2] at h1; cases h1; rfl
      | ok x => rw [e2] at h1; cases h1
    | ok x =>
      rw [e1] at h1
      cases e2 : finelyAlignPatch p nb ref deg w fb' r with
      | error e' => rw [e2] at h1; cases h1
      | ok y =>
        rw [e2] at h1
        obtain ⟨f1, r1⟩ := x
        obtain ⟨f2, r2⟩ := y
        simp only [dropState_ok, Except.ok.injEq] at h1
        subst h1
        simp only [ok_bind]
        have h2 := finelyAlign_congr p nb ref deg w rs f1 f2
          ((finelyAlignPatch_minFreq e1).trans (h.trans (finelyAlignPatch_minFreq e2).symm))
        cases e3 : finelyAlign p nb ref deg w f1 rs with
        | error e =>
          rw [e3] at h2
          cases e4 : finelyAlign p nb ref deg w f2 rs with
          | error e' => rw [e4] at h2; cases h2; rfl
          | ok x => rw [e4] at h2; cases h2
        | ok x =>
          rw [e3] at h2
          cases e4 : finelyAlign p nb ref deg w f2 rs with
          | error e' => rw [e4] at h2; cases h2
          | ok y =>
            rw [e4] at h2
            obtain ⟨f3, r3⟩ := x
            obtain ⟨f4, r4⟩ := y
            simp only [dropState_ok, Except.ok.injEq] at h2
            subst h2
            rfl

theorem finelyAlign_minFreq {p : Profile} {nb : Nat} {ref deg : AudioSignal F} {w : AnalysisWindow F} :
    ∀ {rs rs' : List (PatchSim F)} {fb fb' : FilterBank F},
    finelyAlign p nb ref deg w fb rs = .ok (fb', rs') → fb'.minFreq = fb.minFreq
  | [], _, _, _, h => by cases h; rfl
  | r :: rs, _, _, _, h => by
    obtain ⟨⟨f1, r1⟩, h1, h⟩ := bind_ok h
    obtain ⟨⟨f2, r2⟩, h2, h⟩ := bind_ok h
    cases h
    exact (finelyAlign_minFreq h2).trans (finelyAlignPatch_minFreq h1)

theorem calculateSimilarity_congr {fb fb' : FilterBank F} (h : fb.minFreq = fb'.minFreq) (p : Profile) (nb : Nat)
    (ref deg : AudioSignal F) (w : AnalysisWindow F) (pc : PatchCreator) (mapper : QualityMapper F) (sw : Nat) :
    calculateSimilarity p nb fb ref deg w pc mapper sw = calculateSimilarity p nb fb' ref deg w pc mapper sw := by
  unfold calculateSimilarity
  simp only [buildSpectrogram_congr h]

theorem calculateSimilarity_minFreq {fb fb' : FilterBank F} {p : Profile} {nb : Nat}
    {ref deg : AudioSignal F} {w : AnalysisWindow F} {pc : PatchCreator} {mapper : QualityMapper F} {sw : Nat}
    {r : SimilarityResult F} (h : calculateSimilarity p nb fb ref deg w pc mapper sw = .ok (fb', r)) :
    fb'.minFreq = fb.minFreq := by
  unfold calculateSimilarity at h
  obtain ⟨⟨fb1, rs⟩, h1, h⟩ := bind_ok h
  obtain ⟨⟨fb2, ds⟩, h2, h⟩ := bind_ok h
  obtain ⟨ms, _, h⟩ := bind_ok h
  obtain ⟨is, _, h⟩ := bind_ok h
  obtain ⟨ps, _, h⟩ := bind_ok h
  obtain ⟨co, _, h⟩ := bind_ok h
  obtain ⟨⟨fb3, fi⟩, h3, h⟩ := bind_ok h
  obtain ⟨_, _, h⟩ := bind_ok h
  obtain ⟨_, _, h⟩ := bind_ok h
  obtain ⟨_, _, h⟩ := bind_ok h
  obtain ⟨_, _, h⟩ := bind_ok h
  obtain ⟨_, _, h⟩ := bind_ok h
  cases h
  exact (finelyAlign_minFreq h3).trans ((buildSpectrogram_minFreq h2).trans (buildSpectrogram_minFreq h1))

/-- Managers that differ at most in the transient part of the filterbank. -/
def Manager.Sim (m m' : Manager F) : Prop :=
  m.numBands = m'.numBands ∧ m.searchWindow = m'.searchWindow ∧ m.patchCreator = m'.patchCreator ∧
  m.mapper = m'.mapper ∧ m.filterBank.minFreq = m'.filterBank.minFreq

theorem computeResults_sim {m m' : Manager F} (h : m.Sim m') (p : Profile) (ref deg : AudioSignal F) :
    dropState (m.computeResults p ref deg) = dropState (m'.computeResults p ref deg) := by
  obtain ⟨h1, h2, h3, h4, h5⟩ := h
  unfold Manager.computeResults
  cases globallyAlign p ref deg with
  | error e => rfl
  | ok o =>
    simp only [ok_bind]
    cases o with
    | none => rfl
    | some t =>
      simp only [h1, h2, h3, h4, calculateSimilarity_congr h5]

theorem run_sim {m m' : Manager F} (h : m.Sim m') (p : Profile) (world : World F) (r d : String) :
    dropState (m.run p world r d) = dropState (m'.run p world r d) := by
  unfold Manager.run
  cases loadAsMono (F := F) (world.wav r) with
  | error e => rfl
  | ok ref =>
    simp only [ok_bind]
    cases loadAsMono (F := F) (world.wav d) with
    | error e => rfl
    | ok deg =>
      simp only [ok_bind]
      cases validateInputAudio ref deg with
      | error e => rfl
      | ok _ => exact computeResults_sim h p ref deg

theorem run_keeps {m m' : Manager F} {p : Profile} {world : World F} {r d : String} {res : SimilarityResult F}
    (h : m.run p world r d = .ok (m', res)) : m'.Sim m := by
  unfold Manager.run at h
  obtain ⟨ref, _, h⟩ := bind_ok h
  obtain ⟨deg, _, h⟩ := bind_ok h
  obtain ⟨_, _, h⟩ := bind_ok h
  unfold Manager.computeResults at h
  obtain ⟨o, _, h⟩ := bind_ok h
  cases o with
  | none => cases h
  | some t =>
    obtain ⟨⟨fb, x⟩, h1, h⟩ := bind_ok h
    cases h
    exact ⟨rfl, rfl, rfl, rfl, calculateSimilarity_minFreq h1⟩

omit [Flt F] [RustFft F] in
theorem Manager.Sim.refl (m : Manager F) : m.Sim m := ⟨rfl, rfl, rfl, rfl, rfl⟩
omit [Flt F] [RustFft F] in
theorem Manager.Sim.symm {a b : Manager F} (h : a.Sim b) : b.Sim a :=
  ⟨h.1.symm, h.2.1.symm, h.2.2.1.symm, h.2.2.2.1.symm, h.2.2.2.2.symm⟩
omit [Flt F] [RustFft F] in
theorem Manager.Sim.trans {a b c : Manager F} (h : a.Sim b) (h' : b.Sim c) : a.Sim c :=
  ⟨h.1.trans h'.1, h.2.1.trans h'.2.1, h.2.2.1.trans h'.2.2.1, h.2.2.2.1.trans h'.2.2.2.1, h.2.2.2.2.trans h'.2.2.2.2⟩

end Visqol
