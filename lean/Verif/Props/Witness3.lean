import Verif.Props.Witness2
import Verif.Props.QualityRounded
import Verif.Props.BuildsRelease

/-! # Inputs for which the hypotheses hold, continued -/

set_option linter.unusedSectionVars false

namespace Visqol

/-- The hypotheses of `C19_empty`: an empty degraded signal. -/
example (p : Profile) (m : Manager ℝ) : (⟨[], 16000⟩ : AudioSignal ℝ).data = [] ∧ (steadySignal 40000 20000).data.length ≤ 2 ^ 63 ∧
    m.computeResults p (steadySignal 40000 20000) ⟨[], 16000⟩ = .error (.err .failedToAlignSignals) := by
  have h : (steadySignal 40000 20000).data.length ≤ 2 ^ 63 := by rw [steady_length]; norm_num
  exact ⟨rfl, h, C19_empty (.inr rfl) h⟩

/-- The hypotheses of `C20_too_short` and `C20_only_too_short`. -/
example (fb : FilterBank ℝ) : (steadySignal 1000 5).data.length < (AnalysisWindow.mk' (F := ℝ) 16000 0.25 0.08).size ∧
    buildSpectrogram 21 fb (steadySignal 1000 5) (AnalysisWindow.mk' 16000 0.25 0.08) = .error (.err (.tooFewSamples 1000 1280)) := by
  have hw : (AnalysisWindow.mk' (F := ℝ) 16000 0.25 0.08).size = 1280 := (window_size 16000 (by norm_num)).trans (by norm_num)
  have h : (steadySignal 1000 5).data.length < (AnalysisWindow.mk' (F := ℝ) 16000 0.25 0.08).size := by
    rw [steady_length, hw]; norm_num
  refine ⟨h, ?_⟩
  have := C20_too_short 21 fb (steadySignal 1000 5) (AnalysisWindow.mk' 16000 0.25 0.08) h
  rw [steady_length, hw] at this
  exact this

/-- The hypotheses of `C51_radius_mod`: two radii that differ by `2^32`, and a comparison that returns a result with either. -/
example (p : Profile) : ∃ m : Manager ℝ, (4294967356 : ℕ) % 4294967296 = m.searchWindow % 4294967296 ∧ 4294967356 ≠ m.searchWindow ∧
    ∃ m' res, ({ m with searchWindow := 4294967356 } : Manager ℝ).computeResults p (steadySignal 40000 20000) (steadySignal 41000 9000) =
      .ok (m', res) := by
  obtain ⟨⟨m', res, h⟩, _⟩ := wideband_run p (le_refl 40000) (by omega) (by omega : 40000 ≤ 41000) (by omega)
    (by omega : (0 : Int) < 20000) demo_i16.1 demo_i16.2 demo_ref demo_deg (u := false) rfl
  generalize steadySignal 40000 20000 = ref at *
  generalize steadySignal 41000 9000 = deg at *
  refine ⟨⟨21, 60, .vad 30, .speech true, FilterBank.new 21 50.0⟩, by show (4294967356 : ℕ) % 4294967296 = 60 % 4294967296; norm_num, by show (4294967356 : ℕ) ≠ 60; norm_num, ?_⟩
  have h1 := C51_radius_mod (p := p) (m := (⟨21, 60, .vad 30, .speech true, FilterBank.new 21 50.0⟩ : Manager ℝ)) (k := 4294967356)
    (by show (4294967356 : ℕ) % 4294967296 = 60 % 4294967296; norm_num) ref deg
  rw [show (⟨21, 60, .vad 30, .speech true, FilterBank.new 21 50.0⟩ : Manager ℝ).computeResults p ref
    deg = .ok (m', res) from h] at h1
  generalize hx : ({ (⟨21, 60, .vad 30, .speech true, FilterBank.new 21 50.0⟩ : Manager ℝ) with searchWindow := 4294967356 } :
    Manager ℝ).computeResults p ref deg = x at h1
  cases x with
  | error e => cases h1
  | ok x => exact ⟨x.1, x.2, rfl⟩

/-- The hypotheses of `C48_batch` and `C48_batch_malformed`: a batch file with a row of three fields, or without it. -/
example (u : Bool) :
    (let csv : String → CsvContent := fun _ => some [["a", "b"], ["r1.wav", "d1.wav"], ["r2.wav", "d2.wav"]]
     buildFilePairPaths csv ⟨.wideband u, some "batch.csv", none, none, none, false, none, 60⟩ =
       .ok [⟨"r1.wav", "d1.wav"⟩, ⟨"r2.wav", "d2.wav"⟩]) ∧
    (let csv : String → CsvContent := fun _ => some [["a", "b"], ["r1.wav", "d1.wav"], ["r2.wav", "d2.wav", "x"]]
     buildFilePairPaths csv ⟨.wideband u, some "batch.csv", none, none, none, false, none, 60⟩ = .error .external) := by
  refine ⟨C48_batch _ _ (.inl rfl) rfl (header := ["a", "b"]) (rows := [["r1.wav", "d1.wav"], ["r2.wav", "d2.wav"]]) rfl (by decide) (by decide), ?_⟩
  exact (C48_batch_malformed _ _ (.inl rfl) rfl).1 ["a", "b"] [["r1.wav", "d1.wav"]] ["r2.wav", "d2.wav", "x"] [] rfl (by decide) (by decide)
    (by decide)

/-- The hypotheses of `C32_times_increase`: two patches, both matched. -/
example (p : Profile) : ∃ rs a b, findMostOptimalDegPatches p [flatMat 10, flatMat 10, flatMat 10] [4, 14, 24] (flatMat 40) (0.02 : ℝ) 4 = .ok rs ∧
    rs[1]? = some a ∧ rs[2]? = some b ∧ a.degStart < a.degEnd ∧ b.degStart < b.degEnd ∧ a.degStart < b.degStart := by
  have hq : ∀ q ∈ [flatMat 10, flatMat 10, flatMat 10], q.WF ∧ q.nrows = 10 ∧ q.ncols = 10 := by
    intro q hq
    simp only [List.mem_cons, List.not_mem_nil, or_false, or_self] at hq
    rw [hq]
    exact ⟨(flatMat_wf 10).1, (flatMat_wf 10).2, rfl⟩
  have hN : (flatMat 40).ncols = 40 := rfl
  obtain ⟨rs, h⟩ := C34_no_panic p (rps := [flatMat 10, flatMat 10, flatMat 10]) (ix := [4, 14, 24]) (deg := flatMat 40)
    (fd := 0.02) (radius := 4) (nb := 10) (pp := 10) rfl hq (by decide) (by decide) (flatMat_wf 40).1 (flatMat_wf 40).2
    (by rw [hN]; decide) (by rw [hN]; decide) (by decide) (by decide) (by decide) (by decide) (by decide)
    ⟨14, by decide, by decide, by rw [hN]; decide⟩ (by rw [hN]; decide)
  have hlen : 3 ≤ rs.length := by
    obtain ⟨_, _, _, h4⟩ := C54_dropped_from_end h rfl (fun q hq' => (hq q hq').2.2) (by decide) (by rw [hN]; decide)
    by_contra hc
    have := h4 2 24 (by omega) rfl
    rw [hN] at this
    omega
  have hwin : ∀ i ∈ [4, 14, 24], (flatMat 40).window i 10 = flatMat 10 := by
    intro i hi
    have h30 : i ≤ 24 := by revert i; decide
    have hrow : (List.range 10).map (fun c => (List.replicate 40 (1 : ℝ)).getD (i + c) 0.0) = List.replicate 10 1 := by
      refine List.eq_replicate_iff.mpr ⟨by rw [List.length_map, List.length_range], fun b hb => ?_⟩
      obtain ⟨c, hc, rfl⟩ := List.mem_map.mp hb
      have := List.mem_range.mp hc
      rw [List.getD_eq_getElem?_getD, List.getElem?_replicate, if_pos (by omega), Option.getD_some]
    unfold Mat.window flatMat
    rw [List.map_replicate, hrow]
  have hm := perfect_find h rfl hq (flatMat_wf 40).1 (by rw [hN]; decide) (by decide) (by decide) (by decide) (by decide) (by decide)
    (by rw [hN]; decide) (by
      intro k m i hk hi q hqq
      have hmm := List.mem_of_getElem? hk
      simp only [List.mem_cons, List.not_mem_nil, or_false, or_self] at hmm
      rw [hwin i (List.mem_of_getElem? hi), hmm] at hqq
      obtain ⟨r, r1, _, _, r4⟩ := C08_nsim_self p (flatMat 10) (flatMat_wf 10).1 (by rw [(flatMat_wf 10).2]; decide) (by decide)
      rw [r1] at hqq
      cases hqq
      exact r4)
  have hpos : ∀ (k : Nat) (r : PatchSim ℝ), rs[k]? = some r → r.degStart < r.degEnd := by
    intro k r hr
    obtain ⟨_, m, o, _, _, hmat⟩ := hm k r hr
    rw [hmat.start, hmat.stop]
    norm_num
  have ha : rs[1]? = some (rs[1]'(by omega)) := List.getElem?_eq_getElem _
  have hb : rs[2]? = some (rs[2]'(by omega)) := List.getElem?_eq_getElem _
  refine ⟨rs, _, _, h, ha, hb, hpos _ _ ha, hpos _ _ hb, ?_⟩
  exact C32_times_increase h rfl (fun q hq' => (hq q hq').2.2) (flatMat_wf 40).1 (by rw [hN]; decide) (by norm_num) (by decide : 1 < 2) ha hb
    (hpos _ _ ha) (hpos _ _ hb)

/-- The hypotheses of `C36_never_lower`, `C36_never_lower_exact` and `C52_fine_times`: the patches found in a comparison. -/
example (p : Profile) : ∃ (nb : Nat) (ref deg : AudioSignal ℝ) (w : AnalysisWindow ℝ) (fb fb' fb'' : FilterBank ℝ) (r r' : PatchSim ℝ)
    (rs rs' : List (PatchSim ℝ)), finelyAlign p nb ref deg w fb (r :: rs) = .ok (fb'', r' :: rs') ∧
      finelyAlignPatch p nb ref deg w fb r = .ok (fb', r') ∧ ref.sampleRate = deg.sampleRate ∧ 0 < ref.sampleRate ∧ 0 ≤ r.refStart ∧
      r.refStart ≤ r.refEnd ∧ r.refEnd * ref.sampleRate < 18446744073709551616 := by
  have key : ∀ x : ℝ, x ≤ 40001 → (x * 0.02 + 0.02 * 30) * ((16000 : ℕ) : ℝ) < 18446744073709551616 := by
    intro x hx
    norm_num
    linarith
  obtain ⟨⟨m', res, h⟩, _⟩ := wideband_run p (le_refl 40000) (by omega) (by omega : 40000 ≤ 41000) (by omega)
    (by omega : (0 : Int) < 20000) demo_i16.1 demo_i16.2 demo_ref demo_deg (u := false) rfl
  obtain ⟨al, lag, hal, ⟨st⟩⟩ := computeResults_stages h
  have hsr := (C39_only_shifts hal).1
  have hal_len := globallyAlign_length hal
  have hfine := st.fine
  have hne := st.coarse_ok.1
  obtain ⟨s1, s2, _, _, s5, s6⟩ := st.shapes
  obtain ⟨c1, c2⟩ := createPatches_ok st.created s1
  have hcr : st.refM.ncols ≤ 1 + 40000 := by rw [s5]; refine numColumns_le.trans ?_; rw [steady_length]
  have hcd : st.degM.ncols < usizeMod := by
    rw [s6]; refine numColumns_le.trans_lt ?_
    rw [steady_length, steady_length] at hal_len
    unfold usizeMod; omega
  have ht := C52_coarse_times st.found c1 (fun q hq => (c2 q hq).2.2) s2 hcd
  have hget := fun j i (hj : st.ix[j]? = some i) => (createPatches_get st.created hj).2
  generalize st.coarse = co at hfine hne ht
  cases co with
  | nil => simp at hne
  | cons r rs =>
    obtain ⟨t1, ⟨i, t2, t3⟩, _⟩ := ht 0 r rfl
    have hi := hget 0 i t2
    unfold finelyAlign at hfine
    obtain ⟨⟨fb', r'⟩, h1, h2⟩ := bind_ok hfine
    obtain ⟨⟨fb'', rs'⟩, h3, h4⟩ := bind_ok h2
    have hw : (AnalysisWindow.mk' (F := ℝ) (steadySignal 40000 20000).sampleRate 0.25 0.08).size = 1280 :=
      (window_size 16000 (by norm_num)).trans (by norm_num)
    have hpc : (⟨21, 60, .vad 30, .speech true, FilterBank.new 21 50.0⟩ : Manager ℝ).patchCreator.patchSize = 30 := rfl
    rw [hw, steady_rate] at t1 t3
    have hfd : (Flt.ofNat 1280 : ℝ) * (AnalysisWindow.mk' (F := ℝ) (steadySignal 40000 20000).sampleRate 0.25 0.08).overlap / Flt.ofNat 16000 = 0.02 := by
      show ((1280 : ℕ) : ℝ) * (Flt.toOfScientific.ofScientific 25 true 2 : ℝ) / ((16000 : ℕ) : ℝ) = _
      simp only [real_sci]; norm_num
    rw [steady_rate] at hfd
    rw [hfd] at t1 t3
    have t3' : r.refStart = (i : ℝ) * 0.02 := t3
    have t1' : r.refEnd = r.refStart + 0.02 * 30 := t1
    have hi0 : (0 : ℝ) ≤ i := Nat.cast_nonneg i
    have hi1 : (i : ℝ) ≤ 40001 := by exact_mod_cast (show i ≤ 40001 by omega)
    generalize hs : steadySignal 40000 20000 = ref at *
    have hrate : ref.sampleRate = 16000 := by rw [← hs]; exact steady_rate _ _
    refine ⟨21, ref, scaleToMatchSpl ref al, AnalysisWindow.mk' ref.sampleRate 0.25 0.08, st.fb2, fb', fb'', r, r', rs, rs', ?_, h1, ?_, ?_, ?_, ?_, ?_⟩
    · unfold finelyAlign; rw [h1]
      show (do let x ← finelyAlign _ _ _ _ _ fb' rs; _) = _
      rw [h3]; rfl
    · show _ = al.sampleRate
      rw [hrate]; exact (hsr.trans (steady_rate _ _)).symm
    · rw [hrate]; norm_num
    · rw [t3']; positivity
    · rw [t1']; norm_num
    · rw [t1', t3', hrate]
      exact key _ hi1

/-- The hypotheses of `C35_silent_unchanged` and `C35_silent_unchanged_exact`: a patch without a match. -/
example (p : Profile) (ref deg : AudioSignal ℝ) (w : AnalysisWindow ℝ) (fb : FilterBank ℝ) :
    Flt.eq (0.0 : ℝ) 0.0 = true ∧ Unmatched (⟨[0, 0], [0, 0], [7, 8], 0, 1, 2, 0, 0⟩ : PatchSim ℝ) ∧
    finelyAlign p 2 ref deg w fb [⟨[0, 0], [0, 0], [7, 8], 0, 1, 2, 0, 0⟩] = .ok (fb, [⟨[0, 0], [0, 0], [7, 8], 0, 1, 2, 0, 0⟩]) := by
  have h0 : (0.0 : ℝ) = 0 := by norm_num
  have he : Flt.eq (0 : ℝ) 0 = true := by simp [Flt.eq]
  refine ⟨by rw [h0]; exact he, ⟨h0.symm, h0.symm, h0.symm, by intro x hx; simp at hx; rw [hx, h0]⟩, ?_⟩
  unfold finelyAlign finelyAlignPatch finelyAlign
  rw [if_pos (by rw [h0]; simp [he])]
  rfl

/-- The hypotheses of `C01_mos_range`, `C01_run` and `C10_not_negative`: a file at full scale, in double precision. -/
example (p : Profile) (world : World B64) (u : Bool) (hr : world.wav "ref.wav" = .wav 1 16000 16 (some (List.replicate 40000 32767)))
    (hd : world.wav "deg.wav" = .wav 1 16000 16 (some (List.replicate 41000 1000))) :
    ∃ (m m' : Manager B64) (ref deg : AudioSignal B64) (res : SimilarityResult B64), m.run p world "ref.wav" "deg.wav" = .ok (m', res) ∧ m.computeResults p ref deg = .ok (m', res) := by
  obtain ⟨m, _, m', res, h, _⟩ := full_scale_run p world u hr hd
  obtain ⟨ref, deg, _, _, _, h'⟩ := run_ok h
  exact ⟨m, m', ref, deg, res, h, h'⟩

/-- The hypotheses of `C28_fullband`, `C27_patches_panic` and `C27_short_wideband`: 0.75 s at 16 kHz, 34 columns. -/
example (p : Profile) (q : QualityMapper ℝ) (deg : AudioSignal ℝ) (hd : deg.data.length ≤ 1000000) :
    (∀ x, (⟨32, 60, .image 20, q, FilterBank.new 32 50.0⟩ : Manager ℝ).computeResults p (steadySignal 12000 20000) deg ≠ .ok x) ∧
    (∀ x, (⟨21, 60, .vad 30, q, FilterBank.new 21 50.0⟩ : Manager ℝ).computeResults p (steadySignal 12000 20000) deg ≠ .ok x) ∧
    ∃ e, ((PatchCreator.vad 30).indices p 34 (steadySignal 12000 20000) (AnalysisWindow.mk' 16000 0.25 0.08) >>= createPatches 30 (flatMat 34)) =
      .error (.panic e) := by
  obtain ⟨w1, w2, _⟩ := window_facts (sr := 16000) (by norm_num) (by norm_num)
  rw [window_16k] at w1 w2
  have hc : numColumns (steadySignal 12000 20000).data.length (AnalysisWindow.mk' (F := ℝ) (steadySignal 12000 20000).sampleRate 0.25 0.08).size
      (AnalysisWindow.mk' (F := ℝ) (steadySignal 12000 20000).sampleRate 0.25 0.08).hop = 34 := by
    rw [steady_length, steady_rate, w1, w2]; norm_num [numColumns]
  have hl : (steadySignal 12000 20000).data.length = 12000 := steady_length _ _
  generalize steadySignal 12000 20000 = ref at *
  refine ⟨fun x => C28_fullband rfl (by omega) (by omega) x, (C27_short_wideband rfl (by omega) (by omega)).1, ?_⟩
  exact C27_patches_panic p (m := flatMat 34) (by show 34 < 44; decide) (by omega) (by omega)

/-- The hypotheses of `C28_find_panics`: the second patch starts after the end of the degraded spectrogram, the first one within half a
patch. -/
example (p : Profile) (radius : Int) : ∃ q, findMostOptimalDegPatches p [flatMat 10, flatMat 10] [4, 60] (flatMat 40) (0.02 : ℝ) radius = .error (.panic q) := by
  have hN : (flatMat 40).ncols = 40 := rfl
  refine C28_find_panics rfl (pp := 10) ?_ (by decide) (by rw [hN]; decide) (by rw [hN]; decide)
  intro q hq
  simp only [List.mem_cons, List.not_mem_nil, or_false, or_self] at hq
  rw [hq]
  rfl

/-- The hypotheses of `C87_release_run` and `C87_release_batch`: a file at full scale, in double precision, by the release build. -/
example (world : World B64) (u : Bool) (hr : world.wav "ref.wav" = .wav 1 16000 16 (some (List.replicate 40000 32767)))
    (hd : world.wav "deg.wav" = .wav 1 16000 16 (some (List.replicate 41000 1000))) :
    ∃ m m' res, Manager.new world 21 (.wideband u) 60 = .ok m ∧ Reasonable B64 (world.wav "ref.wav") ∧ Reasonable B64 (world.wav "deg.wav") ∧
      m.run .wrapping world "ref.wav" "deg.wav" = .ok (m', res) ∧ m.run .checked world "ref.wav" "deg.wav" = .ok (m', res) := by
  obtain ⟨m, hm, m', res, h, _⟩ := full_scale_run .wrapping world u hr hd
  have hR : ∀ (n : Nat) (z : Int), n ≤ 41000 → IsI16 z → Reasonable B64 (.wav 1 16000 16 (some (List.replicate n z))) := by
    intro n z hn hz s hs
    obtain ⟨data, d1, d2, _⟩ := C18_downmix (F := B64) 1 16000 n (List.replicate n z) (by norm_num)
      (fun x hx => by rw [List.eq_of_mem_replicate hx]; exact hz) (by rw [List.length_replicate]; omega)
    rw [d1] at hs
    cases hs
    refine ⟨?_, ?_, ?_⟩ <;> dsimp only <;> omega
  have h1 : Reasonable B64 (world.wav "ref.wav") := by rw [hr]; exact hR _ _ (by norm_num) (by unfold IsI16; omega)
  have h2 : Reasonable B64 (world.wav "deg.wav") := by rw [hd]; exact hR _ _ (by norm_num) (by unfold IsI16; omega)
  exact ⟨m, m', res, hm, h1, h2, h, C87_release_run hm (.fresh (p := .wrapping)) (by norm_num) h1 h2 h⟩

end Visqol
