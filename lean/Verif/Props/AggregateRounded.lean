import Verif.Lemmas.IeeeSum
import Verif.Props.QualityRounded
import Verif.Props.Self

/-! # Aggregates in floating point: C06 -/

set_option linter.unusedSectionVars false

namespace Visqol
open Ieee

variable {F : Type} [Flt F] [Ieee F] [Libm F] [RustFft F]

/-- There are at most as many patches as samples (and two more). -/
theorem Stages.patches_le {p : Profile} {nb : Nat} {fb : FilterBank F} {ref deg : AudioSignal F} {w : AnalysisWindow F}
    {pc : PatchCreator} {mapper : QualityMapper F} {sw : Nat} {res : SimilarityResult F}
    (st : Stages p nb fb ref deg w pc mapper sw res) (hpc : pc = .vad 30 ∨ pc = .image 20) (hlen : ref.data.length < 9223372036854775808) :
    st.ix.length ≤ st.refM.ncols + 1 ∧ res.patchSims.length ≤ ref.data.length + 2 := by
  obtain ⟨_, _, _, _, h5, _⟩ := st.shapes
  obtain ⟨hs, _⟩ := st.sorted_ix hpc hlen
  have hin : ∀ i ∈ st.ix, i + pc.patchSize ≤ st.refM.ncols := by
    intro i hi
    obtain ⟨k, hk⟩ := List.getElem?_of_mem hi
    exact (createPatches_get st.created hk).2
  have hixl : st.ix.length ≤ st.refM.ncols + 1 := by
    have hnd : st.ix.Nodup := hs.imp (fun h => Nat.ne_of_lt h)
    have hsub : st.ix.Subperm (List.range (st.refM.ncols + 1)) :=
      List.subperm_of_subset hnd fun i hi => List.mem_range.mpr (by have := hin i hi; omega)
    simpa using hsub.length_le
  refine ⟨hixl, ?_⟩
  have hcols := @numColumns_le ref.data.length w.size w.hop
  rw [(finelyAlign_each st.fine).1]
  have := st.coarse_ok.2.1
  omega

/-- C06, floating point: in a run with finite scores (C74), `vnsim` is within a millionth of the mean of `fvnsim`, band `b` of `fvnsim` is
within `(n + 3) / 2^33` of the mean of the band `b` similarities of the `n` reported patches, and the similarity of each patch is within a
millionth of the mean of its band similarities. -/
theorem C06_rounded {p : Profile} {m m' : Manager F} {ref deg : AudioSignal F} {res : SimilarityResult F}
    (h : m.computeResults p ref deg = .ok (m', res)) (hpc : m.patchCreator = .vad 30 ∨ m.patchCreator = .image 20) (hnb : m.numBands ≤ 32)
    (hlen : ref.data.length ≤ 2 ^ 40) (hf : FiniteScores res) :
    |number res.vnsim - mean (res.fvnsim.map number)| ≤ 1 / 1000000 ∧
    (∀ b < m.numBands, |number (res.fvnsim.getD b 0.0) - mean (res.patchSims.map fun q => number (q.freqBandMeans.getD b 0.0))| ≤
      (res.patchSims.length + 3) / 2 ^ 33) ∧
    ∀ q ∈ res.patchSims, |number q.similarity - mean (q.freqBandMeans.map number)| ≤ 1 / 1000000 := by
  obtain ⟨l1, _, _, _, hne, hl⟩ := C05_shapes h
  obtain ⟨al, lag, _, ⟨st⟩⟩ := computeResults_stages h
  obtain ⟨_, _, h3⟩ := st.patches_ok
  have hn := (st.patches_le hpc (by omega)).2
  refine ⟨?_, fun b hb => ?_, fun q hq => ?_⟩
  · have hv := st.vn
    unfold meanOpt at hv
    split at hv
    · cases hv
    · rename_i hne
      have h0 : 0 < res.fvnsim.length := List.length_pos_iff.mpr hne
      obtain ⟨y, hy, hyq⟩ := mean_acc hf.bands h0 (by omega)
      have hvn : res.vnsim = Flt.sum res.fvnsim / Flt.ofNat res.fvnsim.length := (Option.some.inj hv).symm
      rw [hvn, number_of hy]
      exact hyq.trans (by norm_num)
  · obtain ⟨y, hy, hye⟩ := perPatchMean_acc (B := 2 ^ 18) (by norm_num) (two_pow_mono (by norm_num)) st.fvn (fun q hq => (hf.patches q hq).2) (by omega)
      (b := b) (by omega)
    rw [number_of hy]
    refine hye.trans (le_of_eq ?_)
    ring
  · obtain ⟨y, hy, hye⟩ := (h3 q hq).similarity_mean hnb (hf.patches q hq).2
    rw [number_of hy]
    exact hye.trans (by norm_num)

/-- C06, floating point: in such a run band `b` of `fvdegenergy` is within `(n + 3) / 2^38` of the mean of the degraded energies of that band
over the `n` reported patches. -/
theorem C06_energy_rounded {p : Profile} {m m' : Manager F} {ref deg : AudioSignal F} {res : SimilarityResult F}
    (h : m.computeResults p ref deg = .ok (m', res)) (hpc : m.patchCreator = .vad 30 ∨ m.patchCreator = .image 20)
    (hlen : ref.data.length ≤ 2 ^ 40) (hf : FiniteScores res) :
    ∀ b < m.numBands, |number (res.fvdegenergy.getD b 0.0) - mean (res.patchSims.map fun q => number (q.freqBandDegEnergy.getD b 0.0))| ≤
      (res.patchSims.length + 3) / 2 ^ 38 := by
  intro b hb
  obtain ⟨_, _, l3, _, _, _⟩ := C05_shapes h
  obtain ⟨al, lag, _, ⟨st⟩⟩ := computeResults_stages h
  have hn := (st.patches_le hpc (by omega)).2
  obtain ⟨y, hy, hye⟩ := perPatchMean_acc (B := 2 ^ 13) (by norm_num) (two_pow_mono (by norm_num)) st.fven
    (fun q hq a ha => by
      obtain ⟨x, h1, h2, h3⟩ := hf.energies q hq a ha
      exact ⟨x, h1, by rwa [abs_of_nonneg h2]⟩) (by omega) (b := b) (by omega)
  rw [number_of hy]
  refine hye.trans (le_of_eq ?_)
  ring

/-- The hypotheses of `C06_rounded` and `C06_energy_rounded`: 2.5 s of silence against a step, in double precision. -/
example (p : Profile) : ∃ m' res, (⟨32, 60, .image 20, .speech true, FilterBank.new 32 50.0⟩ : Manager B64).computeResults p
    noSound (onset B64 1000 40000) = .ok (m', res) ∧ |number res.vnsim - mean (res.fvnsim.map number)| ≤ 1 / 1000000 := by
  obtain ⟨m', res, h1, h2, _⟩ := silent_speech_run p true
  exact ⟨m', res, h1, (C06_rounded h1 (.inr rfl) le_rfl (by rw [noSound_length]; norm_num) h2).1⟩

end Visqol
