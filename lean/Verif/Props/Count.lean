import Verif.Props.Patches
import Verif.Props.Drift

/-! # C64: how many patches a fullband result has -/

set_option linter.unusedSectionVars false

namespace Visqol
variable {F : Type} [Flt F] [RustFft F]

/-- C64: a fullband result has one entry for each `k` such that patch `k` (columns `9 + 20k` and on) is laid out on the reference and
does not start more than half a patch past the end of the aligned degraded spectrogram; nothing else about the signals matters. -/
theorem C64_count {p : Profile} {m m' : Manager F} {ref deg : AudioSignal F} {res : SimilarityResult F}
    (hm : m.patchCreator = .image 20) (hlen : ref.data.length + deg.data.length < 9223372036854775808)
    (h : m.computeResults p ref deg = .ok (m', res)) :
    ∃ al lag, globallyAlign p ref deg = .ok (some (al, lag)) ∧ ∀ k, k < res.patchSims.length ↔
      9 + 20 * k + 21 < numColumns ref.data.length (AnalysisWindow.mk' (F := F) ref.sampleRate 0.25 0.08).size
        (AnalysisWindow.mk' (F := F) ref.sampleRate 0.25 0.08).hop ∧
      9 + 20 * k ≤ numColumns al.data.length (AnalysisWindow.mk' (F := F) ref.sampleRate 0.25 0.08).size
        (AnalysisWindow.mk' (F := F) ref.sampleRate 0.25 0.08).hop + 10 := by
  have h28 := fun hc => C28_fullband hm hlen hc _ h
  obtain ⟨al, lag, hal, ⟨st⟩⟩ := computeResults_stages h
  refine ⟨al, lag, hal, ?_⟩
  rw [hm] at st
  obtain ⟨w1, w2, _, _, h5, h6⟩ := st.shapes
  obtain ⟨c1, c2⟩ := createPatches_ok st.created w1
  have hlal := globallyAlign_length hal
  have hnc := @numColumns_le al.data.length (AnalysisWindow.mk' (F := F) ref.sampleRate 0.25 0.08).size
    (AnalysisWindow.mk' (F := F) ref.sampleRate 0.25 0.08).hop
  rw [← h5] at h28 ⊢
  rw [← h6] at hnc ⊢
  have h51 : 51 ≤ st.refM.ncols := by
    by_contra hc
    exact h28 (by omega)
  obtain ⟨n, _, k1, k2, _⟩ := C25_tiling p (m := st.refM) (by omega) ref (AnalysisWindow.mk' ref.sampleRate 0.25 0.08)
  have hix := Except.ok.inj (st.ixs.symm.trans k1)
  have hfl := (finelyAlign_each st.fine).1
  have hfound := st.found
  rw [hix] at hfound c1
  obtain ⟨d1, d2, d3, d4⟩ := C54_dropped_from_end hfound c1 (pp := 20) (fun q hq => (c2 q hq).2.2) (by
    rw [List.pairwise_map]
    exact List.pairwise_lt_range.imp fun h => by omega) (by unfold usizeMod; omega)
  rw [List.length_map, List.length_range] at d2
  have get : ∀ j < n, ((List.range n).map fun i => 9 + 20 * i)[j]? = some (9 + 20 * j) := fun j hj => by
    rw [List.getElem?_map, List.getElem?_range hj]; rfl
  rw [hfl]
  intro k
  constructor
  · intro hk
    have a := (k2 k).mp (by omega)
    have b := d3 _ (get _ (by omega))
    omega
  · rintro ⟨a, b⟩
    by_contra hc
    have hk : k < n := (k2 k).mpr (by omega)
    have := d4 k _ (by omega) (get k hk)
    omega

end Visqol
