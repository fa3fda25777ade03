import Verif.Lemmas.Shape

/-! # Fine alignment, inverted -/

set_option linter.unusedSectionVars false

namespace Visqol
variable {F : Type} [Flt F] [RustFft F]

theorem alignAndTruncate_rate {p : Profile} {ref deg raa daa : AudioSignal F} {lag : F}
    (h : alignAndTruncate p ref deg = .ok (some (raa, daa, lag))) : raa.sampleRate = ref.sampleRate ∧ daa.sampleRate = deg.sampleRate := by
  unfold alignAndTruncate at h
  obtain ⟨x, h1, h⟩ := bind_ok h
  match x, h1, h with
  | none, _, h => cases h
  | some (al, l), _, h =>
    dsimp only at h
    split at h
    · obtain ⟨_, _, h⟩ := bind_ok h
      obtain ⟨_, _, h⟩ := bind_ok h
      cases h; exact ⟨rfl, rfl⟩
    · split at h
      · obtain ⟨_, _, h⟩ := bind_ok h
        cases h; exact ⟨rfl, rfl⟩
      · cases h; exact ⟨rfl, rfl⟩

theorem alignAndTruncate_short {p : Profile} {ref deg raa daa : AudioSignal F} {lag : F}
    (h : alignAndTruncate p ref deg = .ok (some (raa, daa, lag))) : raa.data.length ≤ ref.data.length := by
  unfold alignAndTruncate at h
  obtain ⟨x, h1, h⟩ := bind_ok h
  match x, h1, h with
  | none, _, h => cases h
  | some (al, l), _, h =>
    dsimp only at h
    split at h
    · obtain ⟨_, h2, h⟩ := bind_ok h
      obtain ⟨_, _, h⟩ := bind_ok h
      cases h
      have := sliceM_ok_length h2
      dsimp only; omega
    · split at h
      · obtain ⟨_, h2, h⟩ := bind_ok h
        cases h
        have := sliceM_ok_length h2
        dsimp only; omega
      · cases h; exact le_rfl

theorem sliceSignal_rate {s x : AudioSignal F} {a b : F} (h : sliceSignal s a b = .ok x) : x.sampleRate = s.sampleRate := by
  unfold sliceSignal at h
  obtain ⟨d, _, h⟩ := bind_ok h
  cases h; rfl

/-- What happened to a patch in fine alignment: it had no match and is kept, or its two segments were aligned and compared
again and it is kept or replaced. -/
inductive FineStep (p : Profile) (nb : Nat) (mf : F) (ref deg : AudioSignal F) (w : AnalysisWindow F) (r : PatchSim F) : PatchSim F → Prop
  | unmatched (h1 : Flt.eq r.degStart r.degEnd = true) (h2 : Flt.eq r.degStart 0.0 = true) : FineStep p nb mf ref deg w r r
  | kept {ra da raa daa : AudioSignal F} {lag : F} {rm dm : Mat F} {n : PatchSim F}
      (h0 : (Flt.eq r.degStart r.degEnd && Flt.eq r.degStart 0.0) = false)
      (h1 : sliceSignal ref r.refStart r.refEnd = .ok ra) (h2 : sliceSignal deg r.degStart r.degEnd = .ok da)
      (h3 : alignAndTruncate p ra da = .ok (some (raa, daa, lag))) (h4 : w.size ≤ raa.data.length ∧ w.size ≤ daa.data.length)
      (h5 : prepareSpectrograms (spectroMat nb mf raa w) (spectroMat nb mf daa w) = .ok (rm, dm))
      (h6 : measurePatchSimilarity p rm dm = .ok n) (h7 : Flt.lt n.similarity r.similarity = true) : FineStep p nb mf ref deg w r r
  | replaced {ra da raa daa : AudioSignal F} {lag : F} {rm dm : Mat F} {n r' : PatchSim F}
      (h0 : (Flt.eq r.degStart r.degEnd && Flt.eq r.degStart 0.0) = false)
      (h1 : sliceSignal ref r.refStart r.refEnd = .ok ra) (h2 : sliceSignal deg r.degStart r.degEnd = .ok da)
      (h3 : alignAndTruncate p ra da = .ok (some (raa, daa, lag))) (h4 : w.size ≤ raa.data.length ∧ w.size ≤ daa.data.length)
      (h5 : prepareSpectrograms (spectroMat nb mf raa w) (spectroMat nb mf daa w) = .ok (rm, dm))
      (h6 : measurePatchSimilarity p rm dm = .ok n) (h7 : Flt.lt n.similarity r.similarity = false)
      (h8 : r'.freqBandMeans = n.freqBandMeans ∧ r'.freqBandStddevs = n.freqBandStddevs ∧
        r'.freqBandDegEnergy = n.freqBandDegEnergy ∧ r'.similarity = n.similarity)
      (h9 : r'.refStart = (if Flt.lt 0.0 lag then r.refStart + lag else r.refStart) ∧
        r'.degStart = (if Flt.lt 0.0 lag then r.degStart else r.degStart - lag) ∧
        r'.refEnd = r'.refStart + raa.duration ∧ r'.degEnd = r'.degStart + daa.duration) : FineStep p nb mf ref deg w r r'

theorem finelyAlignPatch_step {p : Profile} {nb : Nat} {ref deg : AudioSignal F} {w : AnalysisWindow F} {fb fb' : FilterBank F}
    {r r' : PatchSim F} (h : finelyAlignPatch p nb ref deg w fb r = .ok (fb', r')) :
    fb'.minFreq = fb.minFreq ∧ FineStep p nb fb.minFreq ref deg w r r' := by
  unfold finelyAlignPatch at h
  split at h
  · rename_i hc
    cases h
    exact ⟨rfl, .unmatched (by simp_all) (by simp_all)⟩
  rename_i h0
  have h0 := (Bool.not_eq_true _).mp h0
  obtain ⟨ra, e1, h⟩ := bind_ok h
  obtain ⟨da, e2, h⟩ := bind_ok h
  obtain ⟨x, e3, h⟩ := bind_ok h
  match x, e3, h with
  | none, e3, h => cases h
  | some (raa, daa, lag), e3, h =>
    dsimp only at h
    obtain ⟨⟨fa, sa⟩, e4, h⟩ := bind_ok h
    obtain ⟨⟨fc, sc⟩, e5, h⟩ := bind_ok h
    obtain ⟨⟨rm, dm⟩, e6, h⟩ := bind_ok h
    obtain ⟨n, e7, h⟩ := bind_ok h
    dsimp only at h e4 e5 e6 e7
    have m1 := buildSpectrogram_minFreq e4
    have m2 := buildSpectrogram_minFreq e5
    obtain ⟨a1, _, _, a2, _⟩ := buildSpectrogram_ok e4
    obtain ⟨b1, _, _, b2, _⟩ := buildSpectrogram_ok e5
    rw [a2, b2, m1] at e6
    split at h
    · rename_i hc
      cases h
      exact ⟨m2.trans m1, .kept h0 e1 e2 e3 ⟨a1, b1⟩ e6 e7 hc⟩
    · rename_i hc
      cases h
      refine ⟨m2.trans m1, .replaced h0 e1 e2 e3 ⟨a1, b1⟩ e6 e7 (by simpa using hc) ⟨rfl, rfl, rfl, rfl⟩ ⟨?_, ?_, rfl, rfl⟩⟩
      · dsimp only; split <;> rfl
      · dsimp only; split <;> rfl

/-- Fine alignment works patch by patch. -/
theorem finelyAlign_steps {p : Profile} {nb : Nat} {ref deg : AudioSignal F} {w : AnalysisWindow F} :
    ∀ {rs rs' : List (PatchSim F)} {fb fb' : FilterBank F}, finelyAlign p nb ref deg w fb rs = .ok (fb', rs') →
      List.Forall₂ (FineStep p nb fb.minFreq ref deg w) rs rs'
  | [], rs', fb, fb', h => by cases h; exact .nil
  | r :: rs, rs', fb, fb', h => by
    obtain ⟨⟨fb1, r1⟩, h1, h⟩ := bind_ok h
    obtain ⟨⟨fb2, rs2⟩, h2, h⟩ := bind_ok h
    cases h
    obtain ⟨m1, s1⟩ := finelyAlignPatch_step h1
    have := finelyAlign_steps h2
    rw [m1] at this
    exact .cons s1 this

end Visqol
