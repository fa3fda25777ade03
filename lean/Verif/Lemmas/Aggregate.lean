import Verif.Lemmas.Shape

/-! # Aggregation over patches -/

set_option linter.unusedSectionVars false

namespace Visqol
variable {F : Type} [Flt F]

theorem addBands_ok {acc v r : List F} (h : addBands acc v = .ok r) :
    r.length = acc.length ∧ ∀ b (hb : b < acc.length), ∃ y, v[b]? = some y ∧ r[b]? = some (acc[b] + y) := by
  unfold addBands at h
  have hl := mapE_ok_length h
  rw [List.length_zipIdx] at hl
  refine ⟨hl, fun b hb => ?_⟩
  have hb' : acc.zipIdx[b]? = some (acc[b], b) := by simp [hb]
  obtain ⟨c, he, hc⟩ := mapE_ok_get h hb'
  obtain ⟨y, hy, he⟩ := bind_ok he
  cases he
  exact ⟨y, idx_ok hy, hc⟩

theorem foldBands_length {sel : PatchSim F → List F} {acc r : List F} {ps : List (PatchSim F)}
    (h : foldE (fun acc q => addBands acc (sel q)) acc ps = .ok r) : r.length = acc.length :=
  foldE_inv (fun s => s.length = acc.length) (fun a _ s s' hs hf => (addBands_ok hf).1.trans hs) rfl h

theorem perPatchMean_ok {sel : PatchSim F → List F} {ps : List (PatchSim F)} {v : List F}
    (h : perPatchMean sel ps = .ok v) : ∃ q, ps[0]? = some q ∧ v.length = q.freqBandMeans.length := by
  unfold perPatchMean at h
  obtain ⟨q, h1, h⟩ := bind_ok h
  obtain ⟨t, h2, h⟩ := bind_ok h
  cases h
  refine ⟨q, idx_ok h1, ?_⟩
  rw [List.length_map, foldBands_length h2, List.length_replicate]

theorem stdContribution_length {p : Profile} {fd : F} {st st' : List F × Nat} {q : PatchSim F}
    (h : stdContribution p fd st q = .ok st') : st'.1.length = st.1.length := by
  unfold stdContribution at h
  obtain ⟨c, h1, h⟩ := bind_ok h
  cases h
  have := mapE_ok_length h1
  simpa using this

theorem perPatchStdDevs_ok {p : Profile} {ps : List (PatchSim F)} {fd : F} {v : List F}
    (h : perPatchStdDevs p ps fd = .ok v) : ∃ q, ps[0]? = some q ∧ v.length = q.freqBandMeans.length := by
  unfold perPatchStdDevs at h
  obtain ⟨f, h1, h⟩ := bind_ok h
  obtain ⟨q, h2, h⟩ := bind_ok h
  obtain ⟨⟨c, t⟩, h3, h⟩ := bind_ok h
  cases h
  obtain ⟨q', hq', hf⟩ := perPatchMean_ok h1
  have hq := idx_ok h2
  rw [hq] at hq'
  cases hq'
  refine ⟨q, hq, ?_⟩
  have hc : c.length = q.freqBandMeans.length := by
    have := foldE_inv (fun s : List F × Nat => s.1.length = q.freqBandMeans.length)
      (fun a _ s s' hs hf => (stdContribution_length hf).trans hs) (by simp) h3
    exact this
  simp [hc, hf]

/-! ## Exact values -/

theorem foldBands_real {sel : PatchSim ℝ → List ℝ} : ∀ {ps : List (PatchSim ℝ)} {acc r : List ℝ},
    foldE (fun acc q => addBands acc (sel q)) acc ps = .ok r → ∀ b, b < acc.length →
      r.getD b 0 = acc.getD b 0 + (ps.map fun q => (sel q).getD b 0).sum ∧ ∀ q ∈ ps, b < (sel q).length
  | [], acc, r, h, b, hb => by cases h; simp
  | q :: ps, acc, r, h, b, hb => by
    obtain ⟨acc1, h1, h⟩ := bind_ok h
    obtain ⟨hl, hv⟩ := addBands_ok h1
    obtain ⟨y, hy, hr⟩ := hv b hb
    obtain ⟨e1, e2⟩ := foldBands_real h b (by omega)
    have hy' := (List.getElem?_eq_some_iff.mp hy).1
    refine ⟨?_, ?_⟩
    · rw [e1, List.map_cons, List.sum_cons]
      rw [List.getD_eq_getElem?_getD (l := acc1), hr, List.getD_eq_getElem?_getD (l := sel q), hy,
        List.getD_eq_getElem?_getD (l := acc), List.getElem?_eq_getElem hb]
      simp only [Option.getD_some]
      exact add_assoc _ _ _
    · intro q' hq'
      rcases List.mem_cons.mp hq' with rfl | hq'
      · exact hy'
      · exact e2 q' hq'

/-- Exact arithmetic: the mean over patches, band by band. -/
theorem perPatchMean_real {sel : PatchSim ℝ → List ℝ} {ps : List (PatchSim ℝ)} {v : List ℝ}
    (h : perPatchMean sel ps = .ok v) {b : ℕ} (hb : b < v.length) :
    v.getD b 0 = (ps.map fun q => (sel q).getD b 0).sum / ps.length ∧ ∀ q ∈ ps, b < (sel q).length := by
  unfold perPatchMean at h
  obtain ⟨q, h1, h⟩ := bind_ok h
  obtain ⟨t, h2, h⟩ := bind_ok h
  cases h
  rw [List.length_map] at hb
  have hl := foldBands_length h2
  obtain ⟨e1, e2⟩ := foldBands_real h2 b (by omega)
  refine ⟨?_, e2⟩
  rw [List.getD_eq_getElem?_getD, List.getElem?_map, List.getElem?_eq_getElem hb]
  rw [List.getD_eq_getElem?_getD, List.getElem?_eq_getElem hb] at e1
  simp only [Option.map_some, Option.getD_some, real_ofNat] at e1 ⊢
  rw [e1]
  rw [List.length_replicate] at hl
  rw [List.getD_eq_getElem?_getD, List.getElem?_replicate, if_pos (by omega)]
  simp

end Visqol
