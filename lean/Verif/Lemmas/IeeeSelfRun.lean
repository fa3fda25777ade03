import Verif.Num.Unit
import Verif.Lemmas.IeeeCell
import Verif.Lemmas.IeeeScale

/-! # A signal compared with itself in floating point -/

set_option linter.unusedSectionVars false

namespace Visqol
open Ieee
variable {F : Type} [Flt F] [Ieee F]

/-- Matching the level of a signal to itself leaves it as it is. -/
theorem scale_self [UnitLaws F] {s : AudioSignal F} (hs : ∀ a ∈ s.data, Pw 1 a) (hl : s.data.length ≤ 2 ^ 31)
    (hloud : ∃ a ∈ s.data, ∃ v, Is a v ∧ 1 / 2 ^ 40 ≤ |v|) : scaleToMatchSpl s s = s := by
  obtain ⟨a, ha, v, hv, hv1⟩ := hloud
  have hne : s.data ≠ [] := fun h => by rw [h] at ha; cases ha
  rcases spl_bounds hs hl hne with ⟨_, h⟩ | ⟨L, hL, _⟩
  · exact absurd hv1 (h a ha v hv)
  · have h1 : Is (soundPressureLevel s.data - soundPressureLevel s.data) 0 := by
      refine (Is.sub hL hL).trans ?_
      rw [sub_self, rnd_zero]
    have h2 : Is ((soundPressureLevel s.data - soundPressureLevel s.data) / 20.0) 0 := by
      refine (Is.div h1 (show Is (20.0 : F) 20 from val_20) (by norm_num)).trans ?_
      rw [zero_div, rnd_zero]
    have h3 := UnitLaws.powf_zero (F := F) 10.0 _ 10 val_10 h2
    unfold scaleToMatchSpl
    dsimp only
    have h4 : s.data.map (· * Flt.powf 10.0 ((soundPressureLevel s.data - soundPressureLevel s.data) / 20.0)) = s.data := by
      conv_rhs => rw [← List.map_id s.data]
      refine List.map_congr_left fun b hb => ?_
      obtain ⟨x, hx, _⟩ := hs b hb
      exact UnitLaws.mul_one b _ x hx h3
    rw [h4]

/-- One cell of the comparison of a patch with levels of at most 4096 with itself. -/
theorem simCell_self_wide [Libm F] {x : Nat → Nat → F} (hx : ∀ r c, Pw 12 (x r c)) :
    ∃ s, Is (simCell x x) s ∧ |s - 1| ≤ 96 / 10 ^ 4 := by
  choose u hu hub using hx
  obtain ⟨c, hc, hce, hcb⟩ := cov_near hu hu hub hub
  obtain ⟨m, hm, _, hmb, _⟩ := windowMean_near hu hub
  have hvar := nsim_var_nonneg u
  generalize nsimAvg (fun r c => u r c * u r c) - nsimAvg u * nsimAvg u = V at *
  have hmm : |m * m| ≤ 2 ^ 25 := by
    rw [abs_mul]
    have := mul_le_mul hmb hmb (abs_nonneg _) (by norm_num)
    norm_num at this ⊢; linarith
  obtain ⟨q, hq, hqe⟩ := rnd_err F hmm (by norm_num) (two_pow_mono (by norm_num))
  have hq0 : 0 ≤ q := rnd_nonneg hq (mul_self_nonneg _)
  obtain ⟨a1, a2⟩ := abs_le.mp hqe
  obtain ⟨a3, a4⟩ := abs_le.mp hmm
  obtain ⟨a5, a6⟩ := abs_le.mp hce
  obtain ⟨a7, a8⟩ := abs_le.mp hcb
  obtain ⟨s, hs, hse⟩ := simCell_self_core (δ := 1 / 2 ^ 19) ((Is.mul hm hm).trans hq) hq0 (by norm_num at *; linarith) hc (by positivity) le_rfl
    (by linarith) (by norm_num at *; linarith)
  exact ⟨s, hs, hse.trans (by norm_num)⟩

/-- The comparison of a patch with levels of at most 4096 with itself. -/
theorem measure_self_wide [Libm F] {p : Profile} {m : Mat F} {n : PatchSim F} (wf : m.WF) (hp : m.Pw 12) (hn2 : m.nrows ≤ 2 ^ 20)
    (hc2 : m.ncols ≤ 2 ^ 20) (h : measurePatchSimilarity p m m = .ok n) :
    (∀ a ∈ n.freqBandMeans, ∃ x, Is a x ∧ |x - 1| ≤ 1 / 100) ∧ ∃ x, Is n.similarity x ∧ |x - 1| ≤ 1 / 100 := by
  obtain ⟨hs, hn, hc⟩ := measure_ok_inv h
  rw [measurePatchSimilarity_eq p m m wf wf hs hn hc] at h
  cases h
  have hcells : ∀ r ∈ (Mat.ofFn m.nrows m.ncols fun i j => simCell (m.near i j) (m.near i j)).rows, r.length = m.ncols ∧
      ∀ a ∈ r, ∃ x, Is a x ∧ |x - 1| ≤ 96 / 10 ^ 4 := by
    intro r hr'
    obtain ⟨i, _, rfl⟩ := List.mem_map.mp hr'
    refine ⟨by simp, fun a ha => ?_⟩
    obtain ⟨j, _, rfl⟩ := List.mem_map.mp ha
    exact simCell_self_wide fun r c => hp.near i j r c
  have hmeans : ∀ a ∈ (Mat.ofFn m.nrows m.ncols fun i j => simCell (m.near i j) (m.near i j)).rows.map
      (fun r => Flt.sum r / Flt.ofNat m.ncols), ∃ x, Is a x ∧ |x - 1| ≤ 96 / 10 ^ 4 + 1 / 10 ^ 6 := by
    intro a ha
    obtain ⟨r, hr', rfl⟩ := List.mem_map.mp ha
    obtain ⟨h1, h2⟩ := hcells r hr'
    have := mean_one h2 (by norm_num) (by omega) (by omega)
    rwa [h1] at this
  have hlen : ((Mat.ofFn m.nrows m.ncols fun i j => simCell (m.near i j) (m.near i j)).rows.map
      (fun r => Flt.sum r / Flt.ofNat m.ncols)).length = m.nrows := by
    rw [List.length_map]; exact Mat.ofFn_nrows _ _ _
  refine ⟨fun a ha => ?_, ?_⟩
  · obtain ⟨x, h1, h2⟩ := hmeans a ha
    exact ⟨x, h1, h2.trans (by norm_num)⟩
  · obtain ⟨x, h1, h2⟩ := mean_one hmeans (by norm_num) (by omega) (by omega)
    rw [hlen] at h1
    exact ⟨x, h1, h2.trans (by norm_num)⟩

end Visqol
