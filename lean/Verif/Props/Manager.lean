import Verif.Lemmas.Aggregate
import Verif.Lemmas.Errors
import Verif.Lemmas.History
import Verif.Lemmas.Envelope
import Verif.Spec.History

/-! # The manager: histories, input validation and error values (C14, C16, C19, C20, C21, C51, C55) -/

set_option linter.unusedSectionVars false

namespace Visqol
variable {F : Type} [Flt F] [RustFft F]

/-! ## C14: history independence -/

theorem computeResults_keeps {m m' : Manager F} {p : Profile} {ref deg : AudioSignal F} {res : SimilarityResult F}
    (h : m.computeResults p ref deg = .ok (m', res)) : m'.Sim m := by
  unfold Manager.computeResults at h
  obtain ⟨o, _, h⟩ := bind_ok h
  cases o with
  | none => cases h
  | some t =>
    obtain ⟨⟨fb, x⟩, h1, h⟩ := bind_ok h
    cases h
    exact ⟨rfl, rfl, rfl, rfl, calculateSimilarity_minFreq h1⟩

theorem After.sim {p : Profile} {m₀ m : Manager F} (h : After p m₀ m) : m.Sim m₀ := by
  induction h with
  | fresh => exact Manager.Sim.refl _
  | run _ h ih => exact (run_keeps h).trans ih
  | compute _ h ih => exact (computeResults_keeps h).trans ih
  | failedRun _ _ hf ih => exact ⟨ih.1, ih.2.1, ih.2.2.1, ih.2.2.2.1, hf.trans ih.2.2.2.2⟩
  | failedCompute _ _ hf ih => exact ⟨ih.1, ih.2.1, ih.2.2.1, ih.2.2.2.1, hf.trans ih.2.2.2.2⟩

/-- C14: after any history of successful and failed calls, the next `run` returns exactly (value, error or panic) what the
freshly constructed manager would have returned. -/
theorem C14_history {p : Profile} {m₀ m : Manager F} (h : After p m₀ m) (world : World F) (r d : String) :
    returned (m.run p world r d) = returned (m₀.run p world r d) :=
  run_sim h.sim p world r d

/-- C14 for `compute_results` on signals. -/
theorem C14_history_compute {p : Profile} {m₀ m : Manager F} (h : After p m₀ m) (ref deg : AudioSignal F) :
    returned (m.computeResults p ref deg) = returned (m₀.computeResults p ref deg) :=
  computeResults_sim h.sim p ref deg

/-! ## C16: sample rates -/

/-- C16: two loadable files with different sample rates are rejected with both rates, whatever else they contain. -/
theorem C16_mismatch {p : Profile} {world : World F} {m : Manager F} {r d : String} {ref deg : AudioSignal F}
    (hr : loadAsMono (world.wav r) = .ok ref) (hd : loadAsMono (world.wav d) = .ok deg)
    (hne : ref.sampleRate ≠ deg.sampleRate) :
    m.run p world r d = .error (.err (.differentSampleRates ref.sampleRate deg.sampleRate)) := by
  simp only [Manager.run, hr, hd, ok_bind, validateInputAudio, if_pos hne, error_bind]

/-- C16, equal rates: the outcome is that of the comparison itself; durations are not looked at. -/
theorem C16_same_rate {p : Profile} {world : World F} {m : Manager F} {r d : String} {ref deg : AudioSignal F}
    (hr : loadAsMono (world.wav r) = .ok ref) (hd : loadAsMono (world.wav d) = .ok deg)
    (he : ref.sampleRate = deg.sampleRate) : m.run p world r d = m.computeResults p ref deg := by
  simp only [Manager.run, hr, hd, ok_bind, validateInputAudio, he, ne_eq, not_true_eq_false, if_false]

/-- C16, converse: the error is only ever returned for two loadable files whose rates are the reported, different ones. -/
theorem C16_only_mismatch {p : Profile} {world : World F} {m : Manager F} {r d : String} {a b : Nat}
    (h : m.run p world r d = .error (.err (.differentSampleRates a b))) :
    ∃ ref deg : AudioSignal F, loadAsMono (world.wav r) = .ok ref ∧ loadAsMono (world.wav d) = .ok deg ∧
      ref.sampleRate = a ∧ deg.sampleRate = b ∧ a ≠ b := by
  unfold Manager.run at h
  rcases bind_error h with h1 | ⟨ref, h1, h⟩
  · obtain ⟨_, _, _, _, _, _, h0⟩ := load_err h1; cases h0
  rcases bind_error h with h2 | ⟨deg, h2, h⟩
  · obtain ⟨_, _, _, _, _, _, h0⟩ := load_err h2; cases h0
  rcases bind_error h with h3 | ⟨u, h3, h⟩
  · refine ⟨ref, deg, h1, h2, ?_⟩
    unfold validateInputAudio at h3
    split at h3
    · rename_i hne; cases h3; exact ⟨rfl, rfl, hne⟩
    · cases h3
  · have : Errs (fun e => ∀ a b, e ≠ .differentSampleRates a b) (m.computeResults p ref deg) :=
      errs_computeResults (by simp) (by simp) (by simp)
    exact absurd rfl (this.out _ h a b)

/-! ## C19: empty signals -/

/-- C19: if one of the signals is empty, comparing them returns `FailedToAlignSignals`; nothing panics. -/
theorem C19_empty {p : Profile} {m : Manager F} {ref deg : AudioSignal F} (h : ref.data = [] ∨ deg.data = [])
    (hr : ref.data.length ≤ 2 ^ 63) :
    m.computeResults p ref deg = .error (.err .failedToAlignSignals) := by
  have hg : globallyAlign p ref deg = .ok none := by
    unfold globallyAlign
    by_cases hn : ref.data = []
    · rw [hn, calculateUpperEnv_nil]; rfl
    · have hd : deg.data = [] := h.resolve_left hn
      obtain ⟨env, he, _⟩ := calculateUpperEnv_total (p := p) hn hr
      rw [he, hd]
      simp only [ok_bind, calculateUpperEnv_nil]
  unfold Manager.computeResults
  rw [hg]; rfl

/-! ## C20: too short signals -/

/-- C20: a signal shorter than the analysis window makes the builder return `TooFewSamples` with both lengths. -/
theorem C20_too_short (nb : Nat) (fb : FilterBank F) (s : AudioSignal F) (w : AnalysisWindow F)
    (h : s.data.length < w.size) :
    buildSpectrogram nb fb s w = .error (.err (.tooFewSamples s.data.length w.size)) := by
  unfold buildSpectrogram
  dsimp only
  rw [if_pos h]

/-- C20, converse: the builder returns that error only for a signal that is too short, with the actual lengths, and it
returns no other error value. -/
theorem C20_only_too_short {nb : Nat} {fb : FilterBank F} {s : AudioSignal F} {w : AnalysisWindow F} {e : VisqolError}
    (h : buildSpectrogram nb fb s w = .error (.err e)) :
    e = .tooFewSamples s.data.length w.size ∧ s.data.length < w.size :=
  (errs_build (P := fun e => e = .tooFewSamples s.data.length w.size ∧ s.data.length < w.size)
    fun h => ⟨rfl, h⟩).out e h

/-- C20 for a whole comparison: a too short reference is reported with its length (unless alignment fails first), and
likewise a degraded signal that is too short once aligned. -/
theorem C20_run {p : Profile} {m : Manager F} {ref deg al : AudioSignal F} {lag : F}
    (hg : globallyAlign p ref deg = .ok (some (al, lag))) :
    let w : AnalysisWindow F := AnalysisWindow.mk' ref.sampleRate 0.25 0.08
    (ref.data.length < w.size →
      m.computeResults p ref deg = .error (.err (.tooFewSamples ref.data.length w.size))) ∧
    (∀ x, buildSpectrogram m.numBands m.filterBank ref w = .ok x → al.data.length < w.size →
      m.computeResults p ref deg = .error (.err (.tooFewSamples al.data.length w.size))) := by
  intro w
  constructor
  · intro h
    unfold Manager.computeResults
    rw [hg]
    simp only [ok_bind]
    unfold calculateSimilarity
    simp only [C20_too_short _ _ _ _ h, error_bind, w] at *
  · intro x hx h
    unfold Manager.computeResults
    rw [hg]
    simp only [ok_bind]
    unfold calculateSimilarity
    have h' : (scaleToMatchSpl ref al).data.length < w.size := by simpa [scaleToMatchSpl] using h
    have := C20_too_short m.numBands x.1 (scaleToMatchSpl ref al) w h'
    simp only [hx, ok_bind, this, error_bind, w] at *
    simp [scaleToMatchSpl]

/-- C20 for a whole comparison, converse: the error always reports a length below the window length of the reference's
sample rate. -/
theorem C20_run_only {p : Profile} {m : Manager F} {ref deg : AudioSignal F} {a b : Nat}
    (h : m.computeResults p ref deg = .error (.err (.tooFewSamples a b))) :
    a < b ∧ b = (AnalysisWindow.mk' (F := F) ref.sampleRate 0.25 0.08).size := by
  have : Errs (fun e => ∀ a b, e = .tooFewSamples a b → a < b ∧ b = (AnalysisWindow.mk' (F := F) ref.sampleRate 0.25 0.08).size)
      (m.computeResults p ref deg) :=
    errs_computeResults (by simp) (fun n hn a b e => by cases e; exact ⟨hn, rfl⟩) (by simp)
  exact this.out _ h a b rfl

/-! ## C21: shape and locality of the spectrogram -/

/-- C21: shape of a built spectrogram. -/
theorem C21_shape {nb : Nat} {fb fb' : FilterBank F} {s : AudioSignal F} {w : AnalysisWindow F} {sp : Spectrogram F}
    (h : buildSpectrogram nb fb s w = .ok (fb', sp)) :
    sp.data.WF ∧ sp.data.nrows = nb ∧ sp.data.ncols = 1 + (s.data.length - w.size) / w.hop := by
  obtain ⟨_, _, _, e, _⟩ := buildSpectrogram_ok h
  rw [e]
  exact ⟨spectroMat_wf _ _ _ _, spectroMat_nrows _ _ _ _, rfl⟩

theorem spectroMat_at (nb : Nat) (f : F) (s : AudioSignal F) (w : AnalysisWindow F) {b j : Nat} (hb : b < nb)
    (hj : j < numColumns s.data.length w.size w.hop) :
    (spectroMat nb f s w).at b j =
      bandEnergy ((rowCoeffs nb s.sampleRate f)[b]'(by rw [rowCoeffs_length]; exact hb)) (frameAt s w j) := by
  have hb' : b < (rowCoeffs nb s.sampleRate f).length := by rw [rowCoeffs_length]; exact hb
  simp only [Mat.at, spectroMat, List.getD_eq_getElem?_getD, List.getElem?_map, List.getElem?_eq_getElem hb', Option.map_some,
    Option.getD_some, List.getElem?_range hj]

/-- C21, locality: if frame `j` of one signal and frame `k` of another consist of the same samples (same sample rate, same
window), then the columns `j` and `k` of their spectrograms are equal, whatever the filterbank did before, whatever the
rest of the signals is. -/
theorem C21_locality {nb : Nat} {fb₁ fb₁' fb₂ fb₂' : FilterBank F} {s t : AudioSignal F} {w : AnalysisWindow F}
    {a b : Spectrogram F} (h₁ : buildSpectrogram nb fb₁ s w = .ok (fb₁', a)) (h₂ : buildSpectrogram nb fb₂ t w = .ok (fb₂', b))
    (hf : fb₁.minFreq = fb₂.minFreq) (hr : s.sampleRate = t.sampleRate) {j k : Nat} (hj : j < a.data.ncols)
    (hk : k < b.data.ncols)
    (hs : (s.data.drop (j * w.hop)).take w.size = (t.data.drop (k * w.hop)).take w.size) :
    ∀ band < nb, a.data.at band j = b.data.at band k := by
  intro band hband
  obtain ⟨_, _, _, e1, _⟩ := buildSpectrogram_ok h₁
  obtain ⟨_, _, _, e2, _⟩ := buildSpectrogram_ok h₂
  rw [e1] at hj ⊢
  rw [e2] at hk ⊢
  rw [spectroMat_at _ _ _ _ hband hj, spectroMat_at _ _ _ _ hband hk]
  have hfr : frameAt s w j = frameAt t w k := hs
  rw [hfr]
  congr 1
  simp only [hr, hf]

/-! ## C55: centre frequencies -/

/-- C55: two successful comparisons by managers with the same number of bands report the same centre frequencies if the
references have the same sample rate; signals, variants, models, search radii and histories do not matter. -/
theorem C55_center_freqs {p p' : Profile} {w₁ w₂ : World F} {nb : Nat} {v₁ v₂ : Variant} {k₁ k₂ : Nat}
    {m₁ m₂ n₁ n₂ m₁' m₂' : Manager F} (hm₁ : Manager.new w₁ nb v₁ k₁ = .ok m₁) (hm₂ : Manager.new w₂ nb v₂ k₂ = .ok m₂)
    (ha₁ : After p m₁ n₁) (ha₂ : After p' m₂ n₂)
    {r₁ d₁ r₂ d₂ : AudioSignal F} {a b : SimilarityResult F}
    (h₁ : n₁.computeResults p r₁ d₁ = .ok (m₁', a)) (h₂ : n₂.computeResults p' r₂ d₂ = .ok (m₂', b))
    (hs : r₁.sampleRate = r₂.sampleRate) : a.centerFreqBands = b.centerFreqBands := by
  have key : ∀ {w : World F} {v : Variant} {k : Nat} {m : Manager F}, Manager.new w nb v k = .ok m →
      m.numBands = nb ∧ m.filterBank.minFreq = 50.0 := by
    intro w v k m h
    cases v with
    | wideband u => cases h; exact ⟨rfl, rfl⟩
    | fullband path =>
      obtain ⟨x, _, h⟩ := bind_ok h
      cases h; exact ⟨rfl, rfl⟩
  obtain ⟨_, _, _, ⟨s1⟩⟩ := computeResults_stages h₁
  obtain ⟨_, _, _, ⟨s2⟩⟩ := computeResults_stages h₂
  have e1 := s1.sorted
  have e2 := s2.sorted
  obtain ⟨i1, j1⟩ := key hm₁
  obtain ⟨i2, j2⟩ := key hm₂
  have t1 := ha₁.sim
  have t2 := ha₂.sim
  rw [t1.1, t1.2.2.2.2, i1, j1, hs] at e1
  rw [t2.1, t2.2.2.2.2, i2, j2, e1] at e2
  injection e2

/-! ## C51: the search radius -/

theorem bmod_congr {x y : Int} {n : Nat} (h : x % n = y % n) : x.bmod n = y.bmod n := by
  rw [← Int.emod_bmod, h, Int.emod_bmod]

/-- C51: the outcome only depends on the radius modulo `2^32`. -/
theorem C51_radius_mod {p : Profile} {m : Manager F} {k : Nat} (h : k % 4294967296 = m.searchWindow % 4294967296)
    (ref deg : AudioSignal F) :
    returned (({ m with searchWindow := k } : Manager F).computeResults p ref deg) =
      returned (m.computeResults p ref deg) := by
  have hw : wrapI32 k = wrapI32 m.searchWindow := by
    unfold wrapI32
    apply bmod_congr
    exact_mod_cast h
  have hc : ∀ al : AudioSignal F, calculateSimilarity p m.numBands m.filterBank ref al
      (AnalysisWindow.mk' ref.sampleRate 0.25 0.08) m.patchCreator m.mapper k =
      calculateSimilarity p m.numBands m.filterBank ref al
      (AnalysisWindow.mk' ref.sampleRate 0.25 0.08) m.patchCreator m.mapper m.searchWindow := by
    intro al
    unfold calculateSimilarity
    rw [hw]
  unfold Manager.computeResults
  cases globallyAlign p ref deg with
  | error e => simp only [error_bind]
  | ok o =>
    simp only [ok_bind]
    cases o with
    | none => rfl
    | some t =>
      dsimp only
      rw [hc t.1]
      cases (calculateSimilarity p m.numBands m.filterBank ref t.1
        (AnalysisWindow.mk' ref.sampleRate 0.25 0.08) m.patchCreator m.mapper m.searchWindow) <;> rfl

/-- C51: with overflow checks a comparison succeeds only if the signed 32-bit value of the radius times the patch size
fits in 32 bits. -/
theorem C51_radius_overflow {m m' : Manager F} {ref deg : AudioSignal F} {res : SimilarityResult F}
    (h : m.computeResults .checked ref deg = .ok (m', res)) (hp : m.patchCreator.patchSize < 2147483648) :
    -2147483648 ≤ wrapI32 m.searchWindow * m.patchCreator.patchSize ∧
      wrapI32 m.searchWindow * m.patchCreator.patchSize ≤ 2147483647 := by
  obtain ⟨_, _, _, ⟨st⟩⟩ := computeResults_stages h
  obtain ⟨h1, h2, h3, h4, _, _⟩ := st.shapes
  obtain ⟨c1, c2⟩ := createPatches_ok st.created h1
  have hf := st.found
  unfold findMostOptimalDegPatches at hf
  obtain ⟨first, hfi, hf⟩ := bind_ok hf
  obtain ⟨sw, hsw, hf⟩ := bind_ok hf
  have hc := (c2 first (List.mem_of_getElem? (idx_ok hfi))).2.2
  rw [hc, wrapI32_of_mem (z := (m.patchCreator.patchSize : Int)) (by omega) (by omega)] at hsw
  unfold i32 at hsw
  split at hsw
  · assumption
  · cases hsw

end Visqol
