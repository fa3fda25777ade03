import Verif.Lemmas.IeeeSelf
import Verif.Props.NsimRounded

/-! # A patch compared with itself in floating point (C08) -/

namespace Visqol
open Ieee

/-- Every level is a number of at most `B` in absolute value. -/
def LevelsWithin {F : Type} [Flt F] [Ieee F] (B : ℝ) (m : Mat F) : Prop :=
  ∀ r ∈ m.rows, ∀ a ∈ r, ∃ x, val a = .fin x ∧ |x| ≤ B

/-- C08, floating point: NSIM of a non-empty patch with itself succeeds, and every band mean and the similarity are within 0.0001 of 1,
whatever the levels (of at most 256 dB). -/
theorem C08_nsim_self_rounded {F : Type} [Flt F] [Ieee F] [Libm F] (p : Profile) (m : Mat F) (wf : m.WF) (hn : 0 < m.nrows) (hc : 0 < m.ncols)
    (hn2 : m.nrows ≤ 2 ^ 20) (hc2 : m.ncols ≤ 2 ^ 20) (hl : LevelsWithin 256 m) :
    ∃ r, measurePatchSimilarity p m m = .ok r ∧ r.freqBandMeans.length = m.nrows ∧
      (∀ a ∈ r.freqBandMeans, ∃ x, val a = .fin x ∧ |x - 1| ≤ 1 / 10000) ∧
      ∃ x, val r.similarity = .fin x ∧ |x - 1| ≤ 1 / 10000 := by
  have hp : m.Pw 8 := fun r hr a ha => by
    obtain ⟨x, h1, h2⟩ := hl r hr a ha
    exact ⟨x, h1, by norm_num; exact h2⟩
  refine ⟨_, measurePatchSimilarity_eq p m m wf wf ⟨rfl, rfl⟩ hn hc, ?_⟩
  have hcells : ∀ r ∈ (Mat.ofFn m.nrows m.ncols fun i j => simCell (m.near i j) (m.near i j)).rows, r.length = m.ncols ∧
      ∀ a ∈ r, ∃ x, Is a x ∧ |x - 1| ≤ 7 / 10 ^ 5 := by
    intro r hr'
    obtain ⟨i, _, rfl⟩ := List.mem_map.mp hr'
    refine ⟨by simp, fun a ha => ?_⟩
    obtain ⟨j, _, rfl⟩ := List.mem_map.mp ha
    exact simCell_self_near fun r c => hp.near i j r c
  have hmeans : ∀ a ∈ (Mat.ofFn m.nrows m.ncols fun i j => simCell (m.near i j) (m.near i j)).rows.map
      (fun r => Flt.sum r / Flt.ofNat m.ncols), ∃ x, Is a x ∧ |x - 1| ≤ 7 / 10 ^ 5 + 1 / 10 ^ 6 := by
    intro a ha
    obtain ⟨r, hr', rfl⟩ := List.mem_map.mp ha
    obtain ⟨h1, h2⟩ := hcells r hr'
    have := mean_one h2 (by norm_num) (by omega) (by omega)
    rwa [h1] at this
  have hlen : ((Mat.ofFn m.nrows m.ncols fun i j => simCell (m.near i j) (m.near i j)).rows.map
      (fun r => Flt.sum r / Flt.ofNat m.ncols)).length = m.nrows := by
    rw [List.length_map]; exact Mat.ofFn_nrows _ _ _
  refine ⟨hlen, fun a ha => ?_, ?_⟩
  · obtain ⟨x, h1, h2⟩ := hmeans a ha
    exact ⟨x, h1, h2.trans (by norm_num)⟩
  · obtain ⟨x, h1, h2⟩ := mean_one hmeans (by norm_num) (by omega) (by omega)
    rw [hlen] at h1
    exact ⟨x, h1, h2.trans (by norm_num)⟩

/-- The hypotheses of `C08_nsim_self_rounded`: six different levels in double precision. -/
example : ∃ m : Mat B64, m.WF ∧ 0 < m.nrows ∧ 0 < m.ncols ∧ m.nrows ≤ 2 ^ 20 ∧ m.ncols ≤ 2 ^ 20 ∧ LevelsWithin 256 m ∧
    m.at 0 0 ≠ m.at 1 1 := by
  refine ⟨⟨3, [[1.0, 2.0, 3.0], [4.0, 5.0, 60.0]]⟩, ?_, by decide, by decide, by decide, by decide, ?_, ?_⟩
  · intro r hr; simp at hr; rcases hr with rfl | rfl <;> rfl
  · have key : ∀ k ≤ 256, ∀ n, n = k * 10 → ∃ x, val (Flt.toOfScientific.ofScientific n true 1 : B64) = .fin x ∧ |x| ≤ 256 := by
      intro k hk n hn
      refine ⟨k, val_litnat (by omega) (by omega), ?_⟩
      rw [abs_of_nonneg (by positivity)]
      exact_mod_cast hk
    intro r hr a ha
    simp only [List.mem_cons, List.not_mem_nil, or_false] at hr
    rcases hr with rfl | rfl <;> simp only [List.mem_cons, List.not_mem_nil, or_false] at ha <;> rcases ha with rfl | rfl | rfl
    · exact key 1 (by norm_num) _ rfl
    · exact key 2 (by norm_num) _ rfl
    · exact key 3 (by norm_num) _ rfl
    · exact key 4 (by norm_num) _ rfl
    · exact key 5 (by norm_num) _ rfl
    · exact key 60 (by norm_num) _ rfl
  · intro h
    have h2 := congrArg (val : B64 → Val) h
    have h5 : val (5.0 : B64) = .fin 5 := by
      have := val_litnat (F := B64) (m := 50) (e := 1) (k := 5) (by norm_num) (by norm_num); exact_mod_cast this
    rw [show (Mat.mk 3 [[1.0, 2.0, 3.0], [4.0, 5.0, 60.0]] : Mat B64).at 0 0 = 1.0 from rfl,
      show (Mat.mk 3 [[1.0, 2.0, 3.0], [4.0, 5.0, 60.0]] : Mat B64).at 1 1 = 5.0 from rfl, val_1, h5] at h2
    injection h2 with h2
    norm_num at h2

end Visqol
