import Verif.Lemmas.Aggregate
import Verif.Props.Nsim
import Verif.Num.Dft

/-! # What a successful run reports: C02, C05, C06, C07 and C10 at run level -/

set_option linter.unusedSectionVars false

namespace Visqol

section any
variable {F : Type} [Flt F] [RustFft F]

/-! ## C05: one entry per band -/

/-- C05: every successful comparison reports vectors with one entry per band and at least one patch. -/
theorem C05_shapes {p : Profile} {m m' : Manager F} {ref deg : AudioSignal F} {res : SimilarityResult F}
    (h : m.computeResults p ref deg = .ok (m', res)) :
    res.fvnsim.length = m.numBands ∧ res.fstdnsim.length = m.numBands ∧ res.fvdegenergy.length = m.numBands ∧
    res.centerFreqBands.length = m.numBands ∧ res.patchSims ≠ [] ∧
    ∀ q ∈ res.patchSims, q.freqBandMeans.length = m.numBands ∧ q.freqBandStddevs.length = m.numBands ∧
      q.freqBandDegEnergy.length = m.numBands := by
  obtain ⟨al, lag, _, ⟨st⟩⟩ := computeResults_stages h
  obtain ⟨h1, _, h3⟩ := st.patches_ok
  have hq : ∀ {q}, res.patchSims[0]? = some q → q.freqBandMeans.length = m.numBands := fun hq =>
    (h3 _ (List.mem_of_getElem? hq)).lengths.1
  obtain ⟨q1, e1, l1⟩ := perPatchMean_ok st.fvn
  obtain ⟨q2, e2, l2⟩ := perPatchStdDevs_ok st.fstd
  obtain ⟨q3, e3, l3⟩ := perPatchMean_ok st.fven
  refine ⟨l1.trans (hq e1), l2.trans (hq e2), l3.trans (hq e3), ?_, ?_, fun q hq => (h3 q hq).lengths⟩
  · rw [(sortFreqs_perm st.sorted).length_eq, rawFreqs_length]
  · intro hn; rw [hn] at h1; simp at h1

/-- C05 for a run on files. -/
theorem C05_shapes_run {p : Profile} {world : World F} {m m' : Manager F} {r d : String} {res : SimilarityResult F}
    (h : m.run p world r d = .ok (m', res)) :
    res.fvnsim.length = m.numBands ∧ res.fstdnsim.length = m.numBands ∧ res.fvdegenergy.length = m.numBands ∧
    res.centerFreqBands.length = m.numBands ∧ res.patchSims ≠ [] ∧
    ∀ q ∈ res.patchSims, q.freqBandMeans.length = m.numBands ∧ q.freqBandStddevs.length = m.numBands ∧
      q.freqBandDegEnergy.length = m.numBands := by
  obtain ⟨ref, deg, _, _, _, h⟩ := run_ok h
  exact C05_shapes h

/-! ## C02: the extremes rule -/

/-- C02: a reported `vnsim` below 0.15 comes with a MOS of exactly 1.0, any other with the mapper's prediction for the
reported `fvnsim`. -/
theorem C02_extremes {p : Profile} {m m' : Manager F} {ref deg : AudioSignal F} {res : SimilarityResult F}
    (h : m.computeResults p ref deg = .ok (m', res)) :
    (Flt.lt res.vnsim 0.15 = true → res.moslqo = 1.0) ∧
    (Flt.lt res.vnsim 0.15 = false → m.mapper.predict res.fvnsim = .ok res.moslqo) := by
  obtain ⟨al, lag, _, ⟨st⟩⟩ := computeResults_stages h
  obtain ⟨q, hq, hm⟩ := st.mos
  unfold alterForSimilarityExtremes at hm
  constructor
  · intro hl; rw [hm, if_pos hl]
  · intro hl; rw [hm, hl]; exact hq

end any

/-! ## C06: aggregates are means -/

/-- C06: `vnsim` is the mean of `fvnsim`; band `b` of `fvnsim` (`fvdegenergy`) is the mean over the reported patches of
their band `b` means (degraded energies). -/
theorem C06_aggregates {p : Profile} {m m' : Manager ℝ} {ref deg : AudioSignal ℝ} {res : SimilarityResult ℝ}
    (h : m.computeResults p ref deg = .ok (m', res)) :
    res.vnsim = mean res.fvnsim ∧
    ∀ b < m.numBands,
      res.fvnsim.getD b 0 = mean (res.patchSims.map fun q => q.freqBandMeans.getD b 0) ∧
      res.fvdegenergy.getD b 0 = mean (res.patchSims.map fun q => q.freqBandDegEnergy.getD b 0) := by
  obtain ⟨l1, _, l3, _, _, _⟩ := C05_shapes h
  obtain ⟨al, lag, _, ⟨st⟩⟩ := computeResults_stages h
  refine ⟨?_, fun b hb => ⟨?_, ?_⟩⟩
  · have := st.vn
    unfold meanOpt at this
    split at this
    · cases this
    · injection this with this; rw [← this]; rfl
  · rw [(perPatchMean_real st.fvn (b := b) (by omega)).1, mean, List.length_map]
  · rw [(perPatchMean_real st.fven (b := b) (by omega)).1, mean, List.length_map]

/-! ## C07 at run level -/

theorem mean_bounds_run {l : List ℝ} (h0 : l ≠ []) (h : ∀ x ∈ l, -1 < x ∧ x ≤ 1) : -1 < mean l ∧ mean l ≤ 1 := by
  have hp : (0 : ℝ) < l.length := by
    have := List.length_pos_iff.mpr h0
    exact_mod_cast this
  unfold mean
  rw [lt_div_iff₀ hp, div_le_iff₀ hp]
  constructor
  · have : (l.map fun _ => (-1 : ℝ)).sum < l.sum := by
      clear hp
      induction l with
      | nil => exact absurd rfl h0
      | cons a l ih =>
        rw [List.map_cons, List.sum_cons, List.sum_cons]
        by_cases hl : l = []
        · subst hl; simpa using (h a (by simp)).1
        · exact add_lt_add (h a (by simp)).1 (ih hl fun x hx => h x (by simp [hx]))
    simp at this ⊢
    linarith
  · have := List.sum_le_card_nsmul l 1 fun x hx => (h x hx).2
    simpa using this

/-- A patch that comes from a comparison (or is nulled) has band means and similarity in `(-1, 1]`. -/
theorem FromMeasure.bounds {p : Profile} {nb : ℕ} {r : PatchSim ℝ} (h : FromMeasure p nb r) :
    (∀ x ∈ r.freqBandMeans, -1 < x ∧ x ≤ 1) ∧ -1 < r.similarity ∧ r.similarity ≤ 1 := by
  obtain ⟨a, b, n, wa, wb, _, _, hm, _, _, h3⟩ := h.out
  obtain ⟨b1, b2⟩ := C07_nsim_bounds p a b wa wb n hm
  rcases h3 with ⟨e1, e2⟩ | ⟨e1, e2⟩
  · rw [e1, e2]; exact ⟨b1, b2⟩
  · rw [e1, e2]
    refine ⟨fun x hx => ?_, ?_⟩
    · rw [List.eq_of_mem_replicate hx]; norm_num
    · norm_num

/-- C07: in every successful result each patch's band means and similarity, each `fvnsim` entry and `vnsim` lie in
`(-1, 1]`. -/
theorem C07_run_bounds {p : Profile} {m m' : Manager ℝ} {ref deg : AudioSignal ℝ} {res : SimilarityResult ℝ}
    (h : m.computeResults p ref deg = .ok (m', res)) :
    (∀ q ∈ res.patchSims, (∀ x ∈ q.freqBandMeans, -1 < x ∧ x ≤ 1) ∧ -1 < q.similarity ∧ q.similarity ≤ 1) ∧
    (∀ x ∈ res.fvnsim, -1 < x ∧ x ≤ 1) ∧ (-1 < res.vnsim ∧ res.vnsim ≤ 1) := by
  obtain ⟨l1, _, _, _, hne, hl⟩ := C05_shapes h
  obtain ⟨a1, a2⟩ := C06_aggregates h
  obtain ⟨al, lag, _, ⟨st⟩⟩ := computeResults_stages h
  obtain ⟨_, _, h3⟩ := st.patches_ok
  have hf : ∀ x ∈ res.fvnsim, -1 < x ∧ x ≤ 1 := by
    intro x hx
    obtain ⟨b, hb, rfl⟩ := List.getElem_of_mem hx
    have := (a2 b (by omega)).1
    rw [List.getD_eq_getElem?_getD, List.getElem?_eq_getElem hb, Option.getD_some] at this
    rw [this]
    apply mean_bounds_run
    · simpa using hne
    · intro y hy
      obtain ⟨q, hq, rfl⟩ := List.mem_map.mp hy
      have hq' := (hl q hq).1
      have hb' : b < q.freqBandMeans.length := by omega
      rw [List.getD_eq_getElem?_getD, List.getElem?_eq_getElem hb', Option.getD_some]
      exact (h3 q hq).bounds.1 _ (List.getElem_mem _)
  refine ⟨fun q hq => (h3 q hq).bounds, hf, ?_⟩
  rw [a1]
  apply mean_bounds_run _ hf
  intro hn
  have := st.vn
  rw [hn] at this
  simp [meanOpt] at this

/-! ## C10 at run level (exact arithmetic) -/

/-- C10: no reported deviation is negative. -/
theorem C10_run_std {p : Profile} {m m' : Manager ℝ} {ref deg : AudioSignal ℝ} {res : SimilarityResult ℝ}
    (h : m.computeResults p ref deg = .ok (m', res)) : ∀ x ∈ res.fstdnsim, 0 ≤ x := by
  obtain ⟨al, lag, _, ⟨st⟩⟩ := computeResults_stages h
  have := st.fstd
  unfold perPatchStdDevs at this
  obtain ⟨f, h1, this⟩ := bind_ok this
  obtain ⟨q, h2, this⟩ := bind_ok this
  obtain ⟨⟨c, t⟩, h3, this⟩ := bind_ok this
  injection this with this
  intro x hx
  rw [← this] at hx
  obtain ⟨e, _, rfl⟩ := List.mem_map.mp hx
  split
  · simp
  · exact Real.sqrt_nonneg _

end Visqol
