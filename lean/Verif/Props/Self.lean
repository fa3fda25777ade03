import Verif.Lemmas.Perfect
import Verif.Lemmas.SelfLag
import Verif.Lemmas.Prepare
import Verif.Props.Quality
import Verif.Props.Patches
import Verif.Props.Drift

/-! # C11: comparing a signal with itself -/

set_option linter.unusedSectionVars false

namespace Visqol

section any
variable {F : Type} [Flt F]

/-- Preparing a spectrogram against itself gives twice the same result. -/
theorem prepare_self {a x y : Mat F} (wf : a.WF) (h : prepareSpectrograms a a = .ok (x, y)) : x = y := by
  obtain ⟨⟨floors, lowA, lowB, _, _, _, _, e1, e2⟩⟩ := prepare_ok wf wf h
  rw [e1, e2]

/-- Inside the spectrogram a cut-out patch is the stretch at its start. -/
theorem window_eq_cut {m : Mat F} (wf : m.WF) {i n : Nat} (h : i + n ≤ m.ncols) :
    m.window i n = ⟨n, m.rows.map fun r => (r.drop i).take n⟩ := by
  unfold Mat.window
  congr 1
  apply List.map_congr_left
  intro r hr
  have hl := wf r hr
  apply List.ext_getElem?
  intro k
  by_cases hk : k < n
  · rw [List.getElem?_map, List.getElem?_range hk, List.getElem?_take, if_pos hk, List.getElem?_drop,
      List.getElem?_eq_getElem (by omega)]
    simp only [Option.map_some]
    rw [List.getD_eq_getElem?_getD, List.getElem?_eq_getElem (by omega), Option.getD_some]
  · rw [List.getElem?_eq_none (by simpa using hk), List.getElem?_eq_none (by rw [List.length_take]; omega)]

variable [RustFft F] {p : Profile} {nb : Nat} {fb : FilterBank F} {ref deg : AudioSignal F} {w : AnalysisWindow F}
  {pc : PatchCreator} {mapper : QualityMapper F} {sw : Nat} {res : SimilarityResult F}

/-- Patch starts of either creator are strictly increasing, and there are at least 30 columns. -/
theorem Stages.sorted_ix (st : Stages p nb fb ref deg w pc mapper sw res) (hpc : pc = .vad 30 ∨ pc = .image 20)
    (hlen : ref.data.length < 9223372036854775808) : st.ix.Pairwise (· < ·) ∧ 30 ≤ st.refM.ncols := by
  obtain ⟨_, _, _, _, h5, _⟩ := st.shapes
  have hix := st.ixs
  have hcr := st.created
  rcases hpc with rfl | rfl
  · by_cases h44 : st.refM.ncols < 44
    · exfalso
      obtain ⟨q, hq⟩ := C27_patches_panic p (m := st.refM) (ref := ref) (w := w) h44 st.hhop hlen
      rw [hix] at hq
      simp only [ok_bind] at hq
      have hcr : createPatches 30 st.refM st.ix = .ok st.patches := hcr
      rw [hcr] at hq
      cases hq
    · have h26 := C26_wideband p (m := st.refM) st.hsr st.hhop st.hsize h5 (by omega)
      refine ⟨?_, by omega⟩
      cases hn : normalizeSignal ref.data with
      | error e => rw [(h26.2 e hn).2] at hix; cases hix
      | ok norm =>
        obtain ⟨ix, h1, h2, _⟩ := h26.1 norm hn
        rw [hix] at h1
        cases h1
        apply List.Pairwise.sublist h2
        rw [List.pairwise_map]
        exact List.pairwise_lt_range.imp fun h => by omega
  · by_cases h30 : st.refM.ncols < 30
    · rw [C25_too_small p h30] at hix; cases hix
    · refine ⟨?_, by omega⟩
      obtain ⟨k, _, hk2, _⟩ := C25_tiling p (m := st.refM) (by omega) ref w
      rw [hk2] at hix
      rw [← Except.ok.inj hix, List.pairwise_map]
      exact List.pairwise_lt_range.imp fun h => by omega

end any

/-- Level matching leaves a signal as it is when it is its own reference. -/
theorem scaleToMatchSpl_self (s : AudioSignal ℝ) : scaleToMatchSpl s s = s := by
  unfold scaleToMatchSpl
  simp only [sub_self, real_powf, zero_div, Real.rpow_zero, mul_one, List.map_id']

section stages
variable {p : Profile} {nb : Nat} {fb : FilterBank ℝ} {ref : AudioSignal ℝ} {w : AnalysisWindow ℝ}
  {pc : PatchCreator} {mapper : QualityMapper ℝ} {sw : Nat} {res : SimilarityResult ℝ}

theorem Stages.self_same (st : Stages p nb fb ref ref w pc mapper sw res) : st.degM = st.refM := by
  have hp := st.prep
  rw [scaleToMatchSpl_self, st.minFreq1] at hp
  exact (prepare_self (spectroMat_wf _ _ _ _) hp).symm

/-- Coarse matching if the spectrograms agree: every patch is matched, with similarity 1. -/
theorem Stages.same_coarse {deg : AudioSignal ℝ} (st : Stages p nb fb ref deg w pc mapper sw res) (hsame : st.degM = st.refM)
    (hpc : pc = .vad 30 ∨ pc = .image 20) (hlen : ref.data.length + 30 * sw < 2147483647) :
    ∀ (k : Nat) r, st.coarse[k]? = some r → r.similarity = 1 ∧ ∃ m o, st.patches[k]? = some m ∧ o < st.refM.ncols ∧
      MatchedAt p st.refM m (Flt.ofNat w.size * w.overlap / Flt.ofNat ref.sampleRate)
        (Flt.ofNat w.size * w.overlap / Flt.ofNat ref.sampleRate * pc.patchSize) o r := by
  obtain ⟨w1, w2, s1, s2, s3, s4⟩ := st.shapes
  obtain ⟨hs, h30⟩ := st.sorted_ix hpc (by omega)
  have hpp : 0 < pc.patchSize ∧ pc.patchSize ≤ 30 := by rcases hpc with rfl | rfl <;> decide
  obtain ⟨c1, c2⟩ := createPatches_ok st.created w1
  have hcols := @numColumns_le ref.data.length w.size w.hop
  have hfound := st.found
  rw [wrapI32_of_mem (by omega) (by omega), hsame] at hfound
  have hget : ∀ (k : Nat) i, st.ix[k]? = some i → st.patches[k]? = some ⟨pc.patchSize, st.refM.rows.map fun r => (r.drop i).take pc.patchSize⟩ ∧
      i + pc.patchSize ≤ st.refM.ncols := fun k i hk => createPatches_get st.created hk
  have hin : ∀ i ∈ st.ix, i + pc.patchSize ≤ st.refM.ncols := by
    intro i hi
    obtain ⟨k, hk⟩ := List.getElem?_of_mem hi
    exact (hget k i hk).2
  have hmul : sw * pc.patchSize ≤ 30 * sw := by rw [Nat.mul_comm]; exact Nat.mul_le_mul_right _ hpp.2
  have hixl : st.ix.length ≤ st.refM.ncols + 1 := by
    have hnd : st.ix.Nodup := hs.imp (fun h => Nat.ne_of_lt h)
    have hsub : st.ix.Subperm (List.range (st.refM.ncols + 1)) :=
      List.subperm_of_subset hnd fun i hi => List.mem_range.mpr (by have := hin i hi; omega)
    simpa using hsub.length_le
  refine perfect_find (nb := nb) hfound c1 (fun q hq => ⟨(c2 q hq).1, (c2 q hq).2.1.trans s1, (c2 q hq).2.2⟩) w1 (by omega) (by omega)
    (by omega) (by omega) ?_ hs (fun i hi => by have := hin i hi; omega) ?_
  · intro i hi
    have := hin i hi
    have e : ((sw : Int) * (pc.patchSize : Int)) = ((sw * pc.patchSize : Nat) : Int) := by push_cast; rfl
    rw [e]
    omega
  · intro k m i hm hi q hq
    obtain ⟨g1, g2⟩ := hget k i hi
    rw [window_eq_cut w1 g2] at hq
    rw [hm] at g1
    cases g1
    obtain ⟨_, n1, n2⟩ := measure_ok_inv hq
    obtain ⟨r, r1, _, _, r4⟩ := C08_nsim_self p _ (c2 _ (List.mem_of_getElem? hm)).1 n1 n2
    rw [r1] at hq
    cases hq
    exact r4

/-- Coarse matching of a signal with itself. -/
theorem Stages.self_coarse (st : Stages p nb fb ref ref w pc mapper sw res) (hpc : pc = .vad 30 ∨ pc = .image 20)
    (hlen : ref.data.length + 30 * sw < 2147483647) :
    ∀ (k : Nat) r, st.coarse[k]? = some r → r.similarity = 1 ∧ ∃ m o, st.patches[k]? = some m ∧ o < st.refM.ncols ∧
      MatchedAt p st.refM m (Flt.ofNat w.size * w.overlap / Flt.ofNat ref.sampleRate)
        (Flt.ofNat w.size * w.overlap / Flt.ofNat ref.sampleRate * pc.patchSize) o r :=
  st.same_coarse st.self_same hpc hlen

/-- If all coarse matches have similarity 1, then every reported patch has similarity 1, all band means 1 and all deviations 0. -/
theorem Stages.fine_ones {deg : AudioSignal ℝ} (st : Stages p nb fb ref deg w pc mapper sw res)
    (hc : ∀ r ∈ st.coarse, r.similarity = 1) :
    ∀ r ∈ res.patchSims, r.similarity = 1 ∧ (∀ x ∈ r.freqBandMeans, x = 1) ∧ ∀ x ∈ r.freqBandStddevs, x = 0 := by
  intro r hr
  obtain ⟨_, hl, hf⟩ := st.patches_ok
  obtain ⟨_, h36⟩ := C36_never_lower_exact st.fine
  obtain ⟨k, hk⟩ := List.getElem?_of_mem hr
  have hkl := (List.getElem?_eq_some_iff.mp hk).1
  have hkc : st.coarse[k]? = some (st.coarse[k]'(by omega)) := List.getElem?_eq_getElem _
  have h1 := hc _ (List.mem_of_getElem? hkc)
  have h2 := h36 k _ _ hkc hk
  have hone : r.similarity = 1 := le_antisymm (hf r hr).bounds.2.2 (by rw [← h1]; exact h2)
  refine ⟨hone, ?_⟩
  obtain ⟨a, b, n, wa, wb, _, _, hm, e1, _, e3⟩ := (hf r hr).out
  rcases e3 with ⟨e3, e4⟩ | ⟨_, e4⟩
  · obtain ⟨m1, m2⟩ := measure_one wa wb hm (by rw [← e4, hone])
    rw [e3, e1]
    exact ⟨m1, m2⟩
  · exfalso
    rw [hone, real_lit0] at e4
    norm_num at e4

/-- Every reported patch of a signal compared with itself has similarity 1, all band means 1 and all deviations 0. -/
theorem Stages.self_fine (st : Stages p nb fb ref ref w pc mapper sw res) (hpc : pc = .vad 30 ∨ pc = .image 20)
    (hlen : ref.data.length + 30 * sw < 2147483647) :
    ∀ r ∈ res.patchSims, r.similarity = 1 ∧ (∀ x ∈ r.freqBandMeans, x = 1) ∧ ∀ x ∈ r.freqBandStddevs, x = 0 :=
  st.fine_ones fun r hr => by
    obtain ⟨k, hk⟩ := List.getElem?_of_mem hr
    exact (st.self_coarse hpc hlen k r hk).1

end stages

/-- The aggregated deviations vanish when all band means are 1 and all deviations 0. -/
theorem perPatchStdDevs_ones {p : Profile} {ps : List (PatchSim ℝ)} {fd : ℝ} {v f : List ℝ} (h : perPatchStdDevs p ps fd = .ok v)
    (hf : perPatchMean PatchSim.freqBandMeans ps = .ok f) (hone : ∀ x ∈ f, x = 1)
    (hq : ∀ r ∈ ps, (∀ x ∈ r.freqBandMeans, x = 1) ∧ ∀ x ∈ r.freqBandStddevs, x = 0) : ∀ x ∈ v, x = 0 := by
  unfold perPatchStdDevs at h
  obtain ⟨f', h1, h⟩ := bind_ok h
  rw [hf] at h1
  cases h1
  obtain ⟨q, _, h⟩ := bind_ok h
  obtain ⟨⟨c, t⟩, h3, h⟩ := bind_ok h
  have hc := foldE_inv (fun s : List ℝ × Nat => ∀ x ∈ s.1, x = (s.2 : ℝ)) (by
    intro a ha s s' hs hstep
    unfold stdContribution at hstep
    obtain ⟨c', hc', hstep⟩ := bind_ok hstep
    cases hstep
    intro x hx
    obtain ⟨⟨y, i⟩, hy, hx⟩ := mapE_ok_mem hc' hx
    obtain ⟨dev, d1, hx⟩ := bind_ok hx
    obtain ⟨mu, d2, hx⟩ := bind_ok hx
    obtain ⟨fm, _, hx⟩ := bind_ok hx
    cases hx
    have e1 := (hq a ha).2 _ (List.mem_of_getElem? (idx_ok d1))
    have e2 := (hq a ha).1 _ (List.mem_of_getElem? (idx_ok d2))
    have e3 := hs y (by
      obtain ⟨_, _, hz⟩ := List.mem_zipIdx hy
      rw [hz]; exact List.getElem_mem _)
    dsimp only
    rw [e1, e2, e3, real_ofNat, real_ofNat]
    push_cast
    ring) (by
    intro x hx
    rw [List.eq_of_mem_replicate hx]
    simp) h3
  cases h
  intro x hx
  obtain ⟨e, he, rfl⟩ := List.mem_map.mp hx
  obtain ⟨i, hi, rfl⟩ := List.getElem_of_mem he
  rw [List.getElem_zipWith]
  have hi' := hi
  rw [List.length_zipWith] at hi'
  dsimp only at hc
  rw [hc _ (List.getElem_mem (by omega)), hone _ (List.getElem_mem (by omega))]
  simp

/-- The scores of a comparison all of whose patches are perfect. -/
theorem scores_of_ones {p : Profile} {m m' : Manager ℝ} {ref deg : AudioSignal ℝ} {res : SimilarityResult ℝ}
    (h : m.computeResults p ref deg = .ok (m', res))
    (hq : ∀ q ∈ res.patchSims, q.similarity = 1 ∧ (∀ x ∈ q.freqBandMeans, x = 1) ∧ ∀ x ∈ q.freqBandStddevs, x = 0) :
    (∀ x ∈ res.fvnsim, x = 1) ∧ res.vnsim = 1 ∧ ∀ x ∈ res.fstdnsim, x = 0 := by
  obtain ⟨l1, l2, _, _, hne, hl⟩ := C05_shapes h
  obtain ⟨a1, a2⟩ := C06_aggregates h
  obtain ⟨al, lag, hal, ⟨st⟩⟩ := computeResults_stages h
  have hf : ∀ x ∈ res.fvnsim, x = 1 := by
    intro x hx
    obtain ⟨b, hb, rfl⟩ := List.getElem_of_mem hx
    have := (a2 b (by omega)).1
    rw [List.getD_eq_getElem?_getD, List.getElem?_eq_getElem hb, Option.getD_some] at this
    rw [this]
    have hrep : (res.patchSims.map fun q => q.freqBandMeans.getD b 0) = List.replicate res.patchSims.length 1 := by
      rw [List.eq_replicate_iff]
      refine ⟨by simp, fun y hy => ?_⟩
      obtain ⟨q, hqm, rfl⟩ := List.mem_map.mp hy
      have hq' := (hl q hqm).1
      rw [List.getD_eq_getElem?_getD, List.getElem?_eq_getElem (by omega), Option.getD_some]
      exact (hq q hqm).2.1 _ (List.getElem_mem _)
    rw [hrep]
    have : (res.patchSims.length : ℝ) ≠ 0 := by
      have := List.length_pos_iff.mpr hne
      positivity
    simp [mean, this]
  refine ⟨hf, ?_, perPatchStdDevs_ones st.fstd st.fvn hf fun r hr => (hq r hr).2⟩
  rw [a1]
  have hn : res.fvnsim ≠ [] := by
    intro hn
    have := st.vn
    rw [hn] at this
    simp [meanOpt] at this
  rw [show res.fvnsim = List.replicate res.fvnsim.length 1 from List.eq_replicate_iff.mpr ⟨rfl, hf⟩]
  have : (res.fvnsim.length : ℝ) ≠ 0 := by
    have := List.length_pos_iff.mpr hn
    positivity
  simp [mean, this]

/-- C11: in exact arithmetic a comparison of a signal with itself that returns a result returns a perfect one: every patch has
similarity 1, every `fvnsim` entry and `vnsim` are 1 and every `fstdnsim` entry is 0.  Any search radius and any signal with
`length + 30 * radius` below `2^31 - 1` is allowed, so that no index overflows. -/
theorem C11_perfect {p : Profile} {m m' : Manager ℝ} {ref : AudioSignal ℝ} {res : SimilarityResult ℝ}
    (hpc : m.patchCreator = .vad 30 ∨ m.patchCreator = .image 20)
    (hlen : ref.data.length + 30 * m.searchWindow < 2147483647)
    (h : m.computeResults p ref ref = .ok (m', res)) :
    (∀ q ∈ res.patchSims, q.similarity = 1 ∧ (∀ x ∈ q.freqBandMeans, x = 1) ∧ ∀ x ∈ q.freqBandStddevs, x = 0) ∧
    (∀ x ∈ res.fvnsim, x = 1) ∧ res.vnsim = 1 ∧ ∀ x ∈ res.fstdnsim, x = 0 := by
  obtain ⟨al, lag, hal, ⟨st⟩⟩ := computeResults_stages h
  have hfacts : 9 ≤ ref.data.length := by
    obtain ⟨_, h30⟩ := st.sorted_ix hpc (by omega)
    obtain ⟨_, _, _, _, s3, _⟩ := st.shapes
    rw [s3] at h30
    unfold numColumns at h30
    have := Nat.div_le_self (ref.data.length - (AnalysisWindow.mk' (F := ℝ) ref.sampleRate 0.25 0.08).size)
      (AnalysisWindow.mk' (F := ℝ) ref.sampleRate 0.25 0.08).hop
    omega
  rw [globallyAlign_self p hfacts (by omega)] at hal
  cases hal
  have hq := st.self_fine hpc hlen
  obtain ⟨f1, f2, f3⟩ := scores_of_ones h hq
  exact ⟨hq, f1, f2, f3⟩

/-- C11: the wideband MOS of a signal compared with itself is the largest one that any comparison with the same mapping can
report. -/
theorem C11_mos_maximal {p p₂ : Profile} {s : Bool} {m m' m₂ m₂' : Manager ℝ} {ref ref₂ deg₂ : AudioSignal ℝ}
    {res res₂ : SimilarityResult ℝ} (hpc : m.patchCreator = .vad 30 ∨ m.patchCreator = .image 20)
    (hlen : ref.data.length + 30 * m.searchWindow < 2147483647)
    (h : m.computeResults p ref ref = .ok (m', res)) (hm : m.mapper = .speech s) (hm₂ : m₂.mapper = .speech s)
    (h₂ : m₂.computeResults p₂ ref₂ deg₂ = .ok (m₂', res₂)) : res₂.moslqo ≤ res.moslqo := by
  refine C03_monotone hm₂ hm h₂ h ?_
  rw [(C11_perfect hpc hlen h).2.2.1]
  exact (C07_run_bounds h₂).2.2.2

end Visqol
