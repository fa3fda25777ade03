import Verif.Props.Result
import Verif.Props.Prepare
import Verif.Lemmas.Fine
import Verif.Lemmas.Match
import Verif.Props.Witness

/-! # The reported energies are levels above the floor: C89 -/

set_option linter.unusedSectionVars false

namespace Visqol

/-- The energies of a comparison whose degraded patch has no negative entry. -/
theorem measure_energies {p : Profile} {ref deg : Mat ℝ} {n : PatchSim ℝ} (h : measurePatchSimilarity p ref deg = .ok n)
    (hd : ∀ r ∈ deg.rows, ∀ a ∈ r, 0 ≤ a) : ∀ a ∈ n.freqBandDegEnergy, 0 ≤ a := by
  unfold measurePatchSimilarity at h
  obtain ⟨sm, _, h⟩ := bind_ok h
  obtain ⟨e, h1, h⟩ := bind_ok h
  obtain ⟨m, _, h⟩ := bind_ok h
  obtain ⟨s, _, h⟩ := bind_ok h
  cases h
  have h1 := expect_ok h1
  unfold Mat.meanRows at h1
  split at h1
  · cases h1
  · cases h1
    intro a ha
    obtain ⟨r, hr, rfl⟩ := List.mem_map.mp ha
    have h2 : 0 ≤ r.sum := List.sum_nonneg (hd r hr)
    show 0 ≤ r.sum / ((deg.ncols : ℕ) : ℝ)
    positivity

theorem prepared_nonneg {ref deg a b : Mat ℝ} (wr : ref.WF) (wd : deg.WF) (h : prepareSpectrograms ref deg = .ok (a, b)) :
    ∀ r ∈ b.rows, ∀ x ∈ r, 0 ≤ x := by
  obtain ⟨_, h2, _⟩ := C23_floored wr wd h
  obtain ⟨_, wb, _⟩ := prepare_shape h wr wd
  intro r hr' x hx
  obtain ⟨i, hi, rfl⟩ := List.mem_iff_getElem.mp hr'
  obtain ⟨j, hj, rfl⟩ := List.mem_iff_getElem.mp hx
  have hl := wb _ hr'
  have := h2 i hi j (by omega)
  rwa [show b.at i j = b.rows[i][j] from Mat.at_eq_of_get (List.getElem?_eq_getElem hi) (List.getElem?_eq_getElem hj)] at this

/-- C89, exact arithmetic: in every result the energies, of every patch and of the run, are not negative. -/
theorem C89_levels {p : Profile} {m m' : Manager ℝ} {ref deg : AudioSignal ℝ} {res : SimilarityResult ℝ}
    (h : m.computeResults p ref deg = .ok (m', res)) :
    (∀ q ∈ res.patchSims, ∀ a ∈ q.freqBandDegEnergy, 0 ≤ a) ∧ ∀ a ∈ res.fvdegenergy, 0 ≤ a := by
  obtain ⟨al, lag, _, ⟨st⟩⟩ := computeResults_stages h
  have hd := prepared_nonneg (spectroMat_wf _ _ _ _) (spectroMat_wf _ _ _ _) st.prep
  obtain ⟨_, w2, _⟩ := st.shapes
  have hco : ∀ r ∈ st.coarse, ∀ a ∈ r.freqBandDegEnergy, 0 ≤ a :=
    find_spread (P := fun _ e => ∀ a ∈ e, 0 ≤ a) st.found fun q _ o d n g1 g2 => by
      refine measure_energies g2 ?_
      rw [buildDegradedPatch_ok_window w2 g1]
      intro r hr a ha
      obtain ⟨r', hr', rfl⟩ := List.mem_map.mp hr
      obtain ⟨c, _, rfl⟩ := List.mem_map.mp ha
      cases h1 : r'[o + c]? with
      | none => simp only [List.getD, h1, Option.getD_none]; norm_num
      | some x => simp only [List.getD, h1, Option.getD_some]; exact hd r' hr' x (List.mem_of_getElem? h1)
  have hfi : ∀ q ∈ res.patchSims, ∀ a ∈ q.freqBandDegEnergy, 0 ≤ a := by
    intro q hq
    have hf := finelyAlign_steps st.fine
    obtain ⟨k, hk, rfl⟩ := List.mem_iff_getElem.mp hq
    have hl := hf.length_eq
    have hstep := List.Forall₂.get hf (by omega) hk
    have hc := hco _ (List.getElem_mem (show k < st.coarse.length by omega))
    simp only [List.get_eq_getElem] at hstep
    generalize st.coarse[k] = r at *
    generalize res.patchSims[k] = r' at *
    cases hstep with
    | unmatched _ _ => exact hc
    | kept _ _ _ _ _ _ _ _ => exact hc
    | replaced _ _ _ _ _ h5 h6 _ h8 _ =>
      rw [h8.2.2.1]
      exact measure_energies h6 (prepared_nonneg (spectroMat_wf _ _ _ _) (spectroMat_wf _ _ _ _) h5)
  refine ⟨hfi, ?_⟩
  obtain ⟨_, _, l3, _⟩ := C05_shapes h
  obtain ⟨_, hb⟩ := C06_aggregates h
  intro a ha
  obtain ⟨b, hb1, rfl⟩ := List.mem_iff_getElem.mp ha
  have e := (hb b (by omega)).2
  rw [show res.fvdegenergy.getD b 0 = res.fvdegenergy[b] from by simp [List.getD_eq_getElem?_getD, hb1]] at e
  rw [e]
  unfold mean
  refine div_nonneg (List.sum_nonneg fun x hx => ?_) (Nat.cast_nonneg _)
  obtain ⟨q, hq, rfl⟩ := List.mem_map.mp hx
  cases h1 : q.freqBandDegEnergy[b]? with
  | none => simp [List.getD, h1]
  | some y => simp only [List.getD, h1, Option.getD_some]; exact hfi q hq y (List.mem_of_getElem? h1)

/-- A result as `C89_levels` speaks of: two different steady signals. -/
example (p : Profile) : ∃ (m m' : Manager ℝ) (res : SimilarityResult ℝ), Manager.new demoWorld 21 (.wideband false) 60 = .ok m ∧
    m.computeResults p (steadySignal 40000 20000) (steadySignal 41000 9000) = .ok (m', res) := by
  obtain ⟨⟨m', res, h⟩, _⟩ := wideband_run p (le_refl 40000) (by omega) (by omega : 40000 ≤ 41000) (by omega)
    (by omega : (0 : Int) < 20000) demo_i16.1 demo_i16.2 demo_ref demo_deg (u := false) rfl
  exact ⟨_, m', res, rfl, h⟩

end Visqol
