import Verif.Props.CliOutput
import Verif.Props.Witness
import Verif.Props.Mapping
import Verif.Props.Pooled
import Verif.Props.Pipeline
import Verif.Props.Window
import Verif.Props.NsimFormula

/-! # Inputs for which the hypotheses hold, continued -/

set_option linter.unusedSectionVars false

namespace Visqol

/-- The hypotheses of `C68_svr`, `C68_same` and `C69_formula` hold for a fullband comparison. -/
example (p : Profile) : ∃ m m' res model, Manager.new demoWorld 32 (.fullband "model.txt") 60 = .ok m ∧ m.mapper = .svr model ∧
    0 < m.patchCreator.patchSize ∧ m.patchCreator.patchSize ≤ 2 ^ 61 ∧
    (steadySignal 40000 20000).data.length + (steadySignal 41000 9000).data.length < 9223372036854775808 ∧
    m.computeResults p (steadySignal 40000 20000) (steadySignal 41000 9000) = .ok (m', res) := by
  obtain ⟨⟨m', res, h⟩, _⟩ := fullband_run p (le_refl 40000) (by omega) (by omega : 40000 ≤ 41000) (by omega)
    demo_i16.1 demo_i16.2 demo_ref demo_deg (path := "model.txt") rfl (m := demoManager) demo_new
  refine ⟨demoManager, m', res, _, demo_new, rfl, ?_, ?_, ?_, h⟩
  · show 0 < 20; norm_num
  · show 20 ≤ _; norm_num
  · rw [steady_length, steady_length]; norm_num

/-- The hypotheses of `C68_wideband` and `C69_formula` hold for a wideband comparison. -/
example (p : Profile) : ∃ m m' res, Manager.new demoWorld 21 (.wideband false) 60 = .ok m ∧ m.mapper = .speech true ∧
    0 < m.patchCreator.patchSize ∧ m.patchCreator.patchSize ≤ 2 ^ 61 ∧
    (steadySignal 40000 20000).data.length + (steadySignal 41000 9000).data.length < 9223372036854775808 ∧
    m.computeResults p (steadySignal 40000 20000) (steadySignal 41000 9000) = .ok (m', res) := by
  obtain ⟨⟨m', res, h⟩, _⟩ := wideband_run p (le_refl 40000) (by omega) (by omega : 40000 ≤ 41000) (by omega)
    (by omega : (0 : Int) < 20000) demo_i16.1 demo_i16.2 demo_ref demo_deg (u := false) rfl
  refine ⟨_, m', res, rfl, rfl, ?_, ?_, ?_, h⟩
  · show 0 < 30; norm_num
  · show 30 ≤ _; norm_num
  · rw [steady_length, steady_length]; norm_num

/-- The hypotheses of `C68_small_model`: a manager made from a model file with 31 features. -/
example : ∃ (world : World ℝ) (m : Manager ℝ) (model : SvrModel ℝ), Manager.new world 32 (.fullband "small.txt") 60 = .ok m ∧
    m.mapper = .svr model ∧ model.numFeatures < m.numBands :=
  ⟨⟨fun _ => steadyFile 40000 20000, fun _ => some ⟨31, fun _ => some (some 3.5)⟩⟩, _, _, rfl, rfl, by show 31 < 32; norm_num⟩

theorem demo_setting : 0 < (steadySignal 40000 20000).sampleRate ∧ 0 < windowSamples (steadySignal 40000 20000).sampleRate / 4 ∧
    windowSamples (steadySignal 40000 20000).sampleRate = 4 * (windowSamples (steadySignal 40000 20000).sampleRate / 4) := by
  rw [steady_rate]; decide

/-- The hypotheses of `C71_origin` hold for a wideband comparison of two different signals. -/
example (p : Profile) : ∃ (pad : ℕ → ℕ) (m m' : Manager ℝ) (res : SimilarityResult ℝ), (∀ n, 1 ≤ n → n ≤ 2 ^ 63 → nextPowTwo p n = .ok (pad n)) ∧
    Manager.new demoWorld 21 (.wideband false) 60 = .ok m ∧ 0 < m.filterBank.minFreq ∧
    m.filterBank.minFreq < upperLimit m.numBands (steadySignal 40000 20000).sampleRate ∧
    (steadySignal 40000 20000).sampleRate = (steadySignal 41000 9000).sampleRate ∧ 101 ≤ (steadySignal 40000 20000).sampleRate ∧
    (steadySignal 40000 20000).sampleRate < 4294967296 ∧ (m.patchCreator = .vad 30 ∨ m.patchCreator = .image 20) ∧
    (steadySignal 40000 20000).data.length + (steadySignal 41000 9000).data.length < 2 ^ 56 ∧
    2 ≤ (steadySignal 41000 9000).data.length ∧
    m.computeResults p (steadySignal 40000 20000) (steadySignal 41000 9000) = .ok (m', res) := by
  obtain ⟨pad, hpad⟩ := pad_exists p
  obtain ⟨⟨m', res, h⟩, _⟩ := wideband_run p (le_refl 40000) (by omega) (by omega : 40000 ≤ 41000) (by omega)
    (by omega : (0 : Int) < 20000) demo_i16.1 demo_i16.2 demo_ref demo_deg (u := false) rfl
  refine ⟨pad, _, m', res, hpad, rfl, ?_, ?_, ?_, ?_, ?_, .inl rfl, ?_, ?_, h⟩
  · show 0 < (Flt.toOfScientific.ofScientific 500 true 1 : ℝ)
    rw [real_sci]; norm_num
  · rw [steady_rate]; show (Flt.toOfScientific.ofScientific 500 true 1 : ℝ) < upperLimit 21 16000
    rw [real_sci]; unfold upperLimit; norm_num
  · rw [steady_rate, steady_rate]
  · rw [steady_rate]; norm_num
  · rw [steady_rate]; norm_num
  · rw [steady_length, steady_length]; norm_num
  · rw [steady_length]; norm_num

/-- The hypotheses of `C71_overcount`: comparing a file with itself at 16 kHz needs both kinds of patches. -/
example (p : Profile) : ∃ (S : Setting) (i o n : ℕ) (q r : PatchSim ℝ), 0 < S.sr ∧ 0 < S.hop ∧ S.W = 4 * S.hop ∧
    S.Coarse i o q ∧ S.Realigned i o n r := by
  obtain ⟨pad, hpad⟩ := pad_exists p
  obtain ⟨⟨m', res, h⟩, _⟩ := wideband_run p (le_refl 40000) (by omega) (le_refl 40000) (by omega)
    (by omega : (0 : Int) < 20000) demo_i16.1 demo_i16.1 demo_ref demo_ref (u := false) rfl
  have h1 := (C11_perfect (.inl rfl) (by rw [steady_length]; show 40000 + 30 * 60 < _; norm_num) h).1
  obtain ⟨q, hq⟩ := List.exists_mem_of_ne_nil _ (C05_shapes h).2.2.2.2.1
  have l1 : 0 < (Flt.toOfScientific.ofScientific 500 true 1 : ℝ) := by rw [real_sci]; norm_num
  have l2 : (Flt.toOfScientific.ofScientific 500 true 1 : ℝ) < upperLimit 21 (steadySignal 40000 20000).sampleRate := by
    rw [steady_rate, real_sci]; unfold upperLimit; norm_num
  obtain ⟨z, g, y, c, d, A, B, _, _, _, _, _, key⟩ := C71_origin hpad l1 l2 rfl (by rw [steady_rate]; norm_num)
    (by rw [steady_rate]; norm_num) (.inl rfl) (by rw [steady_length]; norm_num) (by rw [steady_length]; norm_num) h
  cases key q hq with
  | silent _ _ _ _ hu => exact absurd ((h1 q hq).1.symm.trans hu.similarity) (by rw [real_lit0]; norm_num)
  | coarse i o _ _ hc n r hr _ => exact ⟨_, i, o, n, q, r, demo_setting.1, demo_setting.2.1, demo_setting.2.2, hc, hr⟩
  | realigned i o n _ _ hr r hc _ => exact ⟨_, i, o, n, r, q, demo_setting.1, demo_setting.2.1, demo_setting.2.2, hc, hr⟩

/-- A flat patch has positive similarity with every patch of non-negative levels. -/
theorem flat_positive {p : Profile} {a b : Mat ℝ} {x : ℝ} (wa : a.WF) (wb : b.WF) (hs : a.SameShape b) (hn : 0 < a.nrows)
    (hc : 0 < a.ncols) (hx : 0 ≤ x) (ha : ∀ i < a.nrows, ∀ j < a.ncols, a.at i j = x) (hb : ∀ i j, 0 ≤ b.at i j) :
    ∃ r, measurePatchSimilarity p a b = .ok r ∧ 0 < r.similarity := by
  obtain ⟨h1, h2⟩ := measure_formula p wa wb
  obtain ⟨r, hr⟩ := h1.mpr ⟨hs, hn, hc⟩
  refine ⟨r, hr, ?_⟩
  obtain ⟨g1, _, _, g4⟩ := h2 r hr
  have hl : 0 < r.freqBandMeans.length := by rw [g1]; simpa using hn
  have hpos : ∀ l : List ℝ, 0 < l.length → (∀ y ∈ l, 0 < y) → 0 < mean l := by
    intro l hl h
    unfold mean
    exact div_pos (List.sum_pos l h (by intro h; rw [h] at hl; simp at hl)) (by exact_mod_cast hl)
  have hw : ∀ u v, 0 < Spec.weight u v := by
    intro u v; unfold Spec.weight; split_ifs <;> norm_num
  have har : ∀ i j u v, Spec.around a.nrows a.ncols a.at i j u v = x := by
    intro i j u v
    exact ha _ (by omega) _ (by omega)
  have hm : ∀ i j, Spec.localMean a.nrows a.ncols a.at i j = x := by
    intro i j
    unfold Spec.localMean
    simp only [har, ← Finset.sum_mul]
    simp only [Finset.sum_range_succ, Finset.sum_range_zero, Spec.weight]
    norm_num
  rw [g4]
  refine hpos _ hl fun y hy => ?_
  rw [g1] at hy
  obtain ⟨i, _, rfl⟩ := List.mem_map.mp hy
  refine hpos _ (by simpa [Spec.bandSimilarities] using hc) fun z hz => ?_
  obtain ⟨j, _, rfl⟩ := List.mem_map.mp hz
  have hmb : 0 ≤ Spec.localMean a.nrows a.ncols b.at i j :=
    Finset.sum_nonneg fun u _ => Finset.sum_nonneg fun v _ => mul_nonneg (hw u v).le (hb _ _)
  refine mul_pos ?_ ?_
  · unfold Spec.intensity
    rw [hm]
    positivity
  · unfold Spec.structural Spec.localCov
    simp only [har, hm, sub_self, zero_mul, mul_zero, Finset.sum_const_zero, Real.sqrt_zero, zero_add]
    norm_num

/-- Patches of equal levels have a positive similarity with every place of such a spectrogram. -/
theorem flatMat_sim_pos (p : Profile) {k : Nat} (hk : k < 3) (o : Nat) :
    0 < simAt p [flatMat 10, flatMat 10, flatMat 10] (flatMat 60) k o := by
  have hget : [flatMat 10, flatMat 10, flatMat 10][k]? = some (flatMat 10) := by
    interval_cases k <;> rfl
  have hw := window_wf (flatMat 60) o 10
  obtain ⟨r, hr, hp⟩ := flat_positive (p := p) (a := flatMat 10) (b := (flatMat 60).window o 10) (x := 1) (flatMat_wf 10).1 hw.1
    ⟨by rw [(flatMat_wf 10).2, hw.2.1, (flatMat_wf 60).2], hw.2.2.symm⟩ (by rw [(flatMat_wf 10).2]; decide) (by decide) zero_le_one
    (by
      intro i hi j hj
      rw [(flatMat_wf 10).2] at hi
      have : (flatMat 10).ncols = 10 := rfl
      rw [this] at hj
      simp [Mat.at, flatMat, List.getD_eq_getElem?_getD, hi, hj, -List.reduceReplicate]) (by
      intro i j
      unfold Mat.at
      have hall : ∀ r ∈ ((flatMat 60).window o 10).rows, ∀ y ∈ r, (0 : ℝ) ≤ y := by
        intro r hr y hy
        obtain ⟨r', hr', rfl⟩ := List.mem_map.mp hr
        obtain ⟨t, _, rfl⟩ := List.mem_map.mp hy
        rw [List.eq_of_mem_replicate hr', List.getD_eq_getElem?_getD, List.getElem?_replicate]
        split_ifs <;> simp [real_lit0]
      rw [List.getD_eq_getElem?_getD, List.getD_eq_getElem?_getD]
      cases e : ((flatMat 60).window o 10).rows[i]? with
      | none => simp [real_lit0]
      | some r =>
        rw [Option.getD_some]
        cases e2 : r[j]? with
        | none => simp [real_lit0]
        | some y => exact hall r (List.mem_of_getElem? e) y (List.mem_of_getElem? e2))
  unfold simAt
  rw [hget]
  have : (flatMat 10).ncols = 10 := rfl
  simp only [this, hr]
  exact hp

/-- The hypotheses of `C72_window`: a search window of one patch on either side, far from covering the degraded spectrogram. -/
example (p : Profile) : ∃ rs, findMostOptimalDegPatches p [flatMat 10, flatMat 10, flatMat 10] [5, 15, 25] (flatMat 60) (0.02 : ℝ) (1 : ℕ) = .ok rs ∧
    (∀ q ∈ [flatMat 10, flatMat 10, flatMat 10], q.WF ∧ q.nrows = 10 ∧ q.ncols = 10) ∧ (flatMat 60).WF ∧
    (∀ i ∈ [5, 15, 25], i < (flatMat 60).ncols + 1 * 10) ∧
    (∀ k < 3, ∀ o, InWindow [5, 15, 25] (1 * 10) (flatMat 60).ncols k o →
      0 < simAt p [flatMat 10, flatMat 10, flatMat 10] (flatMat 60) k o) ∧
    ¬ InWindow [5, 15, 25] (1 * 10) (flatMat 60).ncols 0 16 := by
  have hq : ∀ q ∈ [flatMat 10, flatMat 10, flatMat 10], q.WF ∧ q.nrows = 10 ∧ q.ncols = 10 := by
    intro q hq
    simp only [List.mem_cons, List.not_mem_nil, or_false, or_self] at hq
    rw [hq]
    exact ⟨(flatMat_wf 10).1, (flatMat_wf 10).2, rfl⟩
  have hN : (flatMat 60).ncols = 60 := rfl
  obtain ⟨rs, h⟩ := C34_no_panic p (rps := [flatMat 10, flatMat 10, flatMat 10]) (ix := [5, 15, 25]) (deg := flatMat 60)
    (fd := 0.02) (radius := (1 : ℕ)) (nb := 10) (pp := 10) rfl hq (by decide) (by decide) (flatMat_wf 60).1 (flatMat_wf 60).2
    (by rw [hN]; decide) (by rw [hN]; decide) (by decide) (by decide) (by decide) (by decide) (by decide)
    ⟨15, by decide, by decide, by rw [hN]; decide⟩ (by rw [hN]; decide)
  refine ⟨rs, h, hq, (flatMat_wf 60).1, by rw [hN]; decide, fun k hk o _ => ?_, ?_⟩
  · exact flatMat_sim_pos p hk o
  · rintro ⟨i, i1, i2, i3, i4⟩
    cases i1
    omega

/-- The hypotheses of `C05_tool`, `C50_columns` and `C50_console`: a batch of two pairs that succeeds and ends normally. -/
example (p : Profile) : ∃ pairs rs, pairs.length = 2 ∧ cliCompute p demoWorld (demoCsv "ref.wav" "ref.wav" "ref.wav" "ref.wav") demoArgs = .ok (pairs, rs) ∧
    (cliMain p demoWorld (demoCsv "ref.wav" "ref.wav" "ref.wav" "ref.wav") (fun _ => true) demoArgs).2 = .ok () ∧
    demoArgs.resultsCsv = some "out.csv" := by
  obtain ⟨_, m', res, h⟩ := fullband_run p (le_refl 40000) (by omega) (le_refl 40000) (by omega) demo_i16.1 demo_i16.1
    demo_ref demo_ref (path := "model.txt") rfl (m := demoManager) demo_new
  have he : EachAlone p demoWorld demoManager [⟨"ref.wav", "ref.wav"⟩, ⟨"ref.wav", "ref.wav"⟩] [res, res] := by
    unfold EachAlone
    refine .cons ⟨m', ?_⟩ (.cons ⟨m', ?_⟩ .nil)
    · exact h
    · exact h
  have hs : ∀ x ∈ [res, res], ∀ y ∈ [res, res], x.patchSims.length = y.patchSims.length := by
    intro x hx y hy
    simp only [List.mem_cons, List.not_mem_nil, or_false, or_self] at hx hy
    rw [hx, hy]
  have hp := demo_pairs "ref.wav" "ref.wav" "ref.wav" "ref.wav"
  have hm := demo_new
  generalize demoWorld = world at *
  generalize demoManager = m at *
  exact ⟨_, [res, res], rfl, (C15_batch_ok (wr := fun _ => true) hp hm he).1,
    (C58_csv_patch_counts hp hm he (path := "out.csv") rfl (fun _ => rfl)).2 hs, rfl⟩

end Visqol
