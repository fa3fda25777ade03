import Verif.Props.AggregateRounded
import Verif.Props.NsimFormula
import Verif.Props.Witness
import Mathlib.Algebra.BigOperators.Fin

/-! # What a wideband score can be, and how much of it one patch decides (C86) -/

set_option linter.unusedSectionVars false

namespace Visqol
open Ieee

/-! ## The overall similarity is the mean over the patches -/

theorem sum_getD (l : List ℝ) : l.sum = ∑ b ∈ Finset.range l.length, l.getD b 0 := by
  induction l with
  | nil => simp
  | cons a l ih => rw [List.sum_cons, List.length_cons, Finset.sum_range_succ', ih, add_comm]; simp

theorem sum_swap {α : Type} (f : α → List ℝ) (n : Nat) : ∀ (l : List α), (∀ q ∈ l, (f q).length = n) →
    ∑ b ∈ Finset.range n, (l.map fun q => (f q).getD b 0).sum = (l.map fun q => (f q).sum).sum
  | [], _ => by simp
  | q :: l, h => by
    simp only [List.map_cons, List.sum_cons, Finset.sum_add_distrib]
    rw [sum_swap f n l fun x hx => h x (by simp [hx]), sum_getD (f q), h q (by simp)]

/-- The similarity of a reported patch is the mean of its band similarities. -/
theorem FromMeasure.sim_eq_mean {p : Profile} {nb : ℕ} {r : PatchSim ℝ} (h : FromMeasure p nb r) : r.similarity = mean r.freqBandMeans := by
  obtain ⟨a, b, n, wa, wb, _, _, hm, _, _, h3⟩ := h.out
  rcases h3 with ⟨e1, e2⟩ | ⟨e1, e2⟩
  · rw [e1, e2]; exact ((measure_formula p wa wb).2 n hm).2.2.2
  · rw [e1, e2]; simp [mean, real_lit0]

theorem mean_map_div {α : Type} (l : List α) (f : α → ℝ) (n : ℝ) : (l.map fun q => f q / n).sum = (l.map f).sum / n := by
  induction l with
  | nil => simp
  | cons a l ih => simp only [List.map_cons, List.sum_cons, ih]; ring

/-- C86: `vnsim` is the mean of the similarities of the reported patches. -/
theorem C86_mean {p : Profile} {m m' : Manager ℝ} {ref deg : AudioSignal ℝ} {res : SimilarityResult ℝ}
    (h : m.computeResults p ref deg = .ok (m', res)) : res.vnsim = mean (res.patchSims.map PatchSim.similarity) := by
  obtain ⟨l1, _, _, _, _, hl⟩ := C05_shapes h
  obtain ⟨a1, a2⟩ := C06_aggregates h
  obtain ⟨al, lag, _, ⟨st⟩⟩ := computeResults_stages h
  obtain ⟨_, _, h3⟩ := st.patches_ok
  have e : res.fvnsim.sum = (res.patchSims.map fun q => q.freqBandMeans.sum).sum / res.patchSims.length := by
    rw [sum_getD, l1, ← sum_swap (fun q : PatchSim ℝ => q.freqBandMeans) m.numBands res.patchSims fun q hq => (hl q hq).1, Finset.sum_div]
    refine Finset.sum_congr rfl fun b hb => ?_
    rw [(a2 b (Finset.mem_range.mp hb)).1, mean, List.length_map]
  have e2 : res.patchSims.map PatchSim.similarity = res.patchSims.map fun q => q.freqBandMeans.sum / (m.numBands : ℝ) :=
    List.map_congr_left fun q hq => by rw [(h3 q hq).sim_eq_mean, mean, (hl q hq).1]
  rw [a1, mean, e, e2, mean, List.length_map, mean_map_div, l1]
  ring

/-! ## The fit -/

theorem exp_fit_tight : Real.exp (46851153 / 10 ^ 7 * (1 - 7655232 / 10 ^ 7)) ≤ 299982 / 100000 := by
  have e : (46851153 / 10 ^ 7 * (1 - 7655232 / 10 ^ 7) : ℝ) = 1 + 9855084317504 / 10 ^ 14 := by norm_num
  have h2 := Real.exp_one_lt_d9
  have h0 := Real.exp_pos (9855084317504 / 10 ^ 14 : ℝ)
  have h4 : Real.exp (9855084317504 / 10 ^ 14 : ℝ) ≤ 11035709 / 10 ^ 7 := by
    have := Real.exp_bound' (x := 9855084317504 / 10 ^ 14) (by norm_num) (by norm_num) (n := 6) (by norm_num)
    refine le_trans this ?_
    norm_num [Finset.sum_range_succ, Nat.factorial]
  rw [e, Real.exp_add]
  have h2' : Real.exp 1 ≤ 27182818286 / 10 ^ 10 := by norm_num at h2 ⊢; linarith
  calc _ ≤ 27182818286 / 10 ^ 10 * (11035709 / 10 ^ 7 : ℝ) := mul_le_mul h2' h4 h0.le (by norm_num)
    _ ≤ _ := by norm_num

/-- The fit at the threshold. -/
theorem exp_fit_threshold : 5589 / 100000 ≤ Real.exp (46851153 / 10 ^ 7 * (14999 / 100000 - 7655232 / 10 ^ 7)) := by
  have e : (46851153 / 10 ^ 7 * (14999 / 100000 - 7655232 / 10 ^ 7) : ℝ) = 2903899675551 / 25000000000000 - 3 * 1 := by norm_num
  have h1 : (1 + 2903899675551 / 25000000000000 + (2903899675551 / 25000000000000) ^ 2 / 2 : ℝ) ≤ Real.exp (2903899675551 / 25000000000000) := by
    have := Real.sum_le_exp_of_nonneg (x := 2903899675551 / 25000000000000) (by norm_num) 3
    refine le_trans (le_of_eq ?_) this
    norm_num [Finset.sum_range_succ, Nat.factorial]
  have h2 : Real.exp 1 ≤ 271829 / 100000 := by have := Real.exp_one_lt_d9; norm_num at this ⊢; linarith
  have h3 : Real.exp (3 * 1) ≤ (271829 / 100000) ^ 3 := by
    rw [show (3 * 1 : ℝ) = ((3 : ℕ) : ℝ) * 1 by norm_num, Real.exp_nat_mul]
    exact pow_le_pow_left₀ (Real.exp_pos _).le h2 3
  rw [e, Real.exp_sub, le_div_iff₀ (Real.exp_pos _)]
  calc _ ≤ 5589 / 100000 * (271829 / 100000 : ℝ) ^ 3 := by gcongr
    _ ≤ _ := by norm_num
    _ ≤ _ := h1

/-- How much the score can change per unit of similarity (below a similarity of 1). -/
noncomputable def maxSlope (s : Bool) : ℝ := if s then 17 else 141 / 10

theorem fitMos_slope_le (s : Bool) {x y : ℝ} (hxy : x ≤ y) (hy : y ≤ 1) : fitMos s y - fitMos s x ≤ maxSlope s * (y - x) := by
  have h1 : Real.exp (46851153 / 10 ^ 7 * (y - 7655232 / 10 ^ 7)) ≤ 299982 / 100000 :=
    (Real.exp_le_exp.mpr (by norm_num; linarith)).trans exp_fit_tight
  have h0 := Real.exp_pos (46851153 / 10 ^ 7 * (y - 7655232 / 10 ^ 7))
  have h2 : Real.exp (46851153 / 10 ^ 7 * (x - 7655232 / 10 ^ 7)) = Real.exp (46851153 / 10 ^ 7 * (y - 7655232 / 10 ^ 7)) *
      Real.exp (-(46851153 / 10 ^ 7 * (y - x))) := by rw [← Real.exp_add]; congr 1; ring
  have h3 := Real.add_one_le_exp (-(46851153 / 10 ^ 7 * (y - x)))
  have h4 := (le_abs_self _).trans (limit_lip ((11559455 / 10 ^ 7 + Real.exp (46851153 / 10 ^ 7 * (y - 7655232 / 10 ^ 7))) * (if s then 12031409 / 10 ^ 7 else 1))
    ((11559455 / 10 ^ 7 + Real.exp (46851153 / 10 ^ 7 * (x - 7655232 / 10 ^ 7))) * (if s then 12031409 / 10 ^ 7 else 1)))
  have hle1 : Real.exp (-(46851153 / 10 ^ 7 * (y - x))) ≤ 1 := Real.exp_le_one_iff.mpr (by norm_num; linarith)
  unfold fitMos
  refine h4.trans ?_
  rw [h2]
  generalize Real.exp (46851153 / 10 ^ 7 * (y - 7655232 / 10 ^ 7)) = E at *
  generalize Real.exp (-(46851153 / 10 ^ 7 * (y - x))) = D at *
  have hd : 0 ≤ y - x := by linarith
  have hD : E * (1 - D) ≤ 299982 / 100000 * (46851153 / 10 ^ 7 * (y - x)) := by
    have : 1 - D ≤ 46851153 / 10 ^ 7 * (y - x) := by linarith
    exact (mul_le_mul_of_nonneg_left this h0.le).trans (mul_le_mul_of_nonneg_right h1 (by positivity))
  have hD1 : D ≤ 1 := hle1
  have e : (11559455 / 10 ^ 7 + E) * (if s then 12031409 / 10 ^ 7 else 1 : ℝ) - (11559455 / 10 ^ 7 + E * D) * (if s then 12031409 / 10 ^ 7 else 1) =
      E * (1 - D) * (if s then 12031409 / 10 ^ 7 else 1) := by ring
  have hp : 0 ≤ E * (1 - D) := mul_nonneg h0.le (by linarith)
  have hc : (0 : ℝ) ≤ (if s then 12031409 / 10 ^ 7 else 1) := by split <;> norm_num
  rw [e, abs_of_nonneg (mul_nonneg hp hc)]
  refine (mul_le_mul_of_nonneg_right hD hc).trans ?_
  unfold maxSlope
  split <;> norm_num <;> linarith

theorem fitMos_slope (s : Bool) {x y : ℝ} (hx : x ≤ 1) (hy : y ≤ 1) : |fitMos s x - fitMos s y| ≤ maxSlope s * |x - y| := by
  rcases le_total x y with h | h
  · rw [abs_sub_comm, abs_of_nonneg (sub_nonneg.mpr (fitMos_mono s h)), abs_sub_comm x, abs_of_nonneg (sub_nonneg.mpr h)]
    exact fitMos_slope_le s h hy
  · rw [abs_of_nonneg (sub_nonneg.mpr (fitMos_mono s h)), abs_of_nonneg (sub_nonneg.mpr h)]
    exact fitMos_slope_le s h hx

/-- The best score. -/
noncomputable def bestScore (s : Bool) : ℝ := if s then 499998 / 100000 else 415577 / 100000

/-- The lowest score above 1. -/
noncomputable def lowestScore (s : Bool) : ℝ := if s then 1458 / 1000 else 12118 / 10000

theorem fitMos_best (s : Bool) {x : ℝ} (h : x ≤ 1) : fitMos s x ≤ bestScore s - 3 / 1000000 := by
  have h1 : Real.exp (46851153 / 10 ^ 7 * (x - 7655232 / 10 ^ 7)) ≤ 299982 / 100000 :=
    (Real.exp_le_exp.mpr (by norm_num; linarith)).trans exp_fit_tight
  have hc : (0 : ℝ) ≤ (if s then 12031409 / 10 ^ 7 else 1) := by split <;> norm_num
  unfold fitMos
  refine max_le (by unfold bestScore; split <;> norm_num) ((min_le_right _ _).trans ((mul_le_mul_of_nonneg_right (add_le_add_right h1 _) hc).trans ?_))
  unfold bestScore
  split <;> norm_num

theorem fitMos_lowest (s : Bool) {x : ℝ} (h : 14999 / 100000 ≤ x) : lowestScore s + 3 / 1000000 ≤ fitMos s x := by
  have h1 : 5589 / 100000 ≤ Real.exp (46851153 / 10 ^ 7 * (x - 7655232 / 10 ^ 7)) :=
    exp_fit_threshold.trans (Real.exp_le_exp.mpr (by norm_num; linarith))
  have hc : (0 : ℝ) ≤ (if s then 12031409 / 10 ^ 7 else 1) := by split <;> norm_num
  unfold fitMos
  refine le_max_of_le_right (le_min (by unfold lowestScore; split <;> norm_num)
    (le_trans ?_ (mul_le_mul_of_nonneg_right (add_le_add_right h1 _) hc)))
  unfold lowestScore
  split <;> norm_num

theorem widebandMos_fit (s : Bool) (x : ℝ) : widebandMos s x = if x < 15 / 100 then 1 else fitMos s x := by
  unfold widebandMos fitMos
  simp only [real_sci]
  norm_num

/-! ## Exact arithmetic -/

/-- C86, range: a wideband score is exactly 1 or at least 1.2118 (1.458 if scaled), and never above 4.15577 (4.99998 if scaled). -/
theorem C86_range {p : Profile} {s : Bool} {m m' : Manager ℝ} {ref deg : AudioSignal ℝ} {res : SimilarityResult ℝ}
    (hm : m.mapper = .speech s) (h : m.computeResults p ref deg = .ok (m', res)) :
    (res.moslqo = 1 ∨ lowestScore s ≤ res.moslqo) ∧ res.moslqo ≤ bestScore s := by
  have h1 := (C07_run_bounds h).2.2.2
  rw [moslqo_eq hm h, widebandMos_fit]
  split
  · exact ⟨.inl rfl, by unfold bestScore; split <;> norm_num⟩
  · rename_i hx
    have := fitMos_lowest s (x := res.vnsim) (by linarith)
    have := fitMos_best s h1
    exact ⟨.inr (by linarith), by linarith⟩

/-- C86, stability: of two wideband comparisons with the same scaling and a similarity of at least 0.15 the scores differ by at most 17
(14.1 if unscaled) times the difference of the similarities. -/
theorem C86_stable {p₁ p₂ : Profile} {s : Bool} {m₁ m₁' m₂ m₂' : Manager ℝ} {ref₁ deg₁ ref₂ deg₂ : AudioSignal ℝ}
    {r₁ r₂ : SimilarityResult ℝ} (hm₁ : m₁.mapper = .speech s) (hm₂ : m₂.mapper = .speech s)
    (h₁ : m₁.computeResults p₁ ref₁ deg₁ = .ok (m₁', r₁)) (h₂ : m₂.computeResults p₂ ref₂ deg₂ = .ok (m₂', r₂))
    (hv₁ : 15 / 100 ≤ r₁.vnsim) (hv₂ : 15 / 100 ≤ r₂.vnsim) : |r₁.moslqo - r₂.moslqo| ≤ maxSlope s * |r₁.vnsim - r₂.vnsim| := by
  rw [moslqo_eq hm₁ h₁, moslqo_eq hm₂ h₂, widebandMos_fit, widebandMos_fit, if_neg (not_lt.mpr hv₁), if_neg (not_lt.mpr hv₂)]
  exact fitMos_slope s (C07_run_bounds h₁).2.2.2 (C07_run_bounds h₂).2.2.2

open Classical in
/-- The number of positions at which two lists of patch results differ. -/
noncomputable def changedPatches (a b : List (PatchSim ℝ)) : Nat := ((Finset.range a.length).filter fun i => a[i]? ≠ b[i]?).card

theorem sum_changed (a b : List (PatchSim ℝ)) (hl : a.length = b.length) (ha : ∀ q ∈ a, -1 < q.similarity ∧ q.similarity ≤ 1)
    (hb : ∀ q ∈ b, -1 < q.similarity ∧ q.similarity ≤ 1) :
    |(a.map PatchSim.similarity).sum - (b.map PatchSim.similarity).sum| ≤ 2 * changedPatches a b := by
  classical
  rw [sum_getD, sum_getD, List.length_map, List.length_map, ← hl, ← Finset.sum_sub_distrib]
  refine (Finset.abs_sum_le_sum_abs _ _).trans ?_
  unfold changedPatches
  rw [Finset.card_filter, Nat.cast_sum, Finset.mul_sum]
  refine Finset.sum_le_sum fun i hi => ?_
  have hi := Finset.mem_range.mp hi
  have hi' : i < b.length := by omega
  have e1 : (a.map PatchSim.similarity).getD i 0 = a[i].similarity := by simp [List.getD_eq_getElem?_getD, hi]
  have e2 : (b.map PatchSim.similarity).getD i 0 = b[i].similarity := by simp [List.getD_eq_getElem?_getD, hi']
  rw [e1, e2]
  by_cases h : a[i]? = b[i]?
  · rw [List.getElem?_eq_getElem hi, List.getElem?_eq_getElem hi', Option.some.injEq] at h
    rw [h, sub_self, abs_zero]; positivity
  · rw [if_pos h]
    obtain ⟨u1, u2⟩ := ha _ (List.getElem_mem hi)
    obtain ⟨v1, v2⟩ := hb _ (List.getElem_mem hi')
    rw [abs_le]; constructor <;> push_cast <;> linarith

/-- C86, patches: if two comparisons report equally many patches and differ in `k` of the `n` of them, their `vnsim` differ by at most
`2 k / n`. -/
theorem C86_patches {p₁ p₂ : Profile} {m₁ m₁' m₂ m₂' : Manager ℝ} {ref₁ deg₁ ref₂ deg₂ : AudioSignal ℝ}
    {r₁ r₂ : SimilarityResult ℝ} (h₁ : m₁.computeResults p₁ ref₁ deg₁ = .ok (m₁', r₁)) (h₂ : m₂.computeResults p₂ ref₂ deg₂ = .ok (m₂', r₂))
    (hl : r₁.patchSims.length = r₂.patchSims.length) :
    |r₁.vnsim - r₂.vnsim| ≤ 2 * changedPatches r₁.patchSims r₂.patchSims / r₁.patchSims.length := by
  rw [C86_mean h₁, C86_mean h₂, mean, mean, List.length_map, List.length_map, ← hl, ← sub_div, abs_div, Nat.abs_cast]
  have := sum_changed _ _ hl (fun q hq => ((C07_run_bounds h₁).1 q hq).2) (fun q hq => ((C07_run_bounds h₂).1 q hq).2)
  gcongr

/-- C86, patches and scores: under the same conditions the wideband scores differ by at most `34 k / n` (`28.2 k / n` if unscaled), provided
that neither similarity is below 0.15. -/
theorem C86_patches_score {p₁ p₂ : Profile} {s : Bool} {m₁ m₁' m₂ m₂' : Manager ℝ} {ref₁ deg₁ ref₂ deg₂ : AudioSignal ℝ}
    {r₁ r₂ : SimilarityResult ℝ} (hm₁ : m₁.mapper = .speech s) (hm₂ : m₂.mapper = .speech s)
    (h₁ : m₁.computeResults p₁ ref₁ deg₁ = .ok (m₁', r₁)) (h₂ : m₂.computeResults p₂ ref₂ deg₂ = .ok (m₂', r₂))
    (hv₁ : 15 / 100 ≤ r₁.vnsim) (hv₂ : 15 / 100 ≤ r₂.vnsim) (hl : r₁.patchSims.length = r₂.patchSims.length) :
    |r₁.moslqo - r₂.moslqo| ≤ maxSlope s * (2 * changedPatches r₁.patchSims r₂.patchSims / r₁.patchSims.length) := by
  have hs : 0 ≤ maxSlope s := by unfold maxSlope; split <;> norm_num
  exact (C86_stable hm₁ hm₂ h₁ h₂ hv₁ hv₂).trans (mul_le_mul_of_nonneg_left (C86_patches h₁ h₂ hl) hs)

/-! ## Floating point -/

variable {F : Type} [Flt F] [Ieee F] [Libm F] [RustFft F]

/-- C86, range, in floating point: with similarities of moderate size (C74), a wideband score is exactly 1 or at least 1.2118 (1.458 if scaled), and
not above 4.15577 (4.99998 if scaled) if the reported `vnsim` is at most 1. -/
theorem C86_range_rounded {p : Profile} {s : Bool} {m m' : Manager F} {ref deg : AudioSignal F} {res : SimilarityResult F}
    (hm : m.mapper = .speech s) (hnb : m.numBands ≤ 32) (h : m.computeResults p ref deg = .ok (m', res)) (hf : ModerateSimilarities res) :
    ∃ y z, val res.vnsim = .fin y ∧ val res.moslqo = .fin z ∧ (z = 1 ∨ lowestScore s ≤ z) ∧ (y ≤ 1 → z ≤ bestScore s) := by
  obtain ⟨y, z, h1, h2, _, _, h3⟩ := result_near hm hnb h hf
  refine ⟨y, z, h1, h2, ?_⟩
  split at h3
  · rw [h3]
    exact ⟨.inl rfl, fun _ => by unfold bestScore; split <;> norm_num⟩
  · rename_i hlt
    obtain ⟨c, hc, hce⟩ := lit_near (F := F) (m := 15) (e := 2) (x := 15 / 100) (by norm_num) (by norm_num) (by norm_num)
    have hy : 14999 / 100000 ≤ y := by
      rw [Is.lt h1 hc] at hlt
      have h4 : ¬ y < c := by simpa using hlt
      have h5 := (abs_le.mp hce).1
      norm_num at h5 ⊢; linarith
    have h5 := (abs_le.mp h3).1
    have h6 := (abs_le.mp h3).2
    have := fitMos_lowest s hy
    refine ⟨.inr (by linarith), fun h7 => ?_⟩
    have := fitMos_best s h7
    linarith

/-- C86, stability, in floating point. -/
theorem C86_stable_rounded {p₁ p₂ : Profile} {s : Bool} {m₁ m₁' m₂ m₂' : Manager F} {ref₁ deg₁ ref₂ deg₂ : AudioSignal F}
    {r₁ r₂ : SimilarityResult F} (hm₁ : m₁.mapper = .speech s) (hm₂ : m₂.mapper = .speech s) (hb₁ : m₁.numBands ≤ 32) (hb₂ : m₂.numBands ≤ 32)
    (h₁ : m₁.computeResults p₁ ref₁ deg₁ = .ok (m₁', r₁)) (h₂ : m₂.computeResults p₂ ref₂ deg₂ = .ok (m₂', r₂))
    (hf₁ : ModerateSimilarities r₁) (hf₂ : ModerateSimilarities r₂) {x₁ x₂ : ℝ} (hx₁ : val r₁.vnsim = .fin x₁) (hx₂ : val r₂.vnsim = .fin x₂)
    (hv₁ : Flt.lt r₁.vnsim 0.15 = false) (hv₂ : Flt.lt r₂.vnsim 0.15 = false) (hu₁ : x₁ ≤ 1) (hu₂ : x₂ ≤ 1) :
    ∃ z₁ z₂, val r₁.moslqo = .fin z₁ ∧ val r₂.moslqo = .fin z₂ ∧ |z₁ - z₂| ≤ maxSlope s * |x₁ - x₂| + 6 / 1000000 := by
  obtain ⟨y₁, z₁, a1, a2, _, _, a5⟩ := result_near hm₁ hb₁ h₁ hf₁
  obtain ⟨y₂, z₂, b1, b2, _, _, b5⟩ := result_near hm₂ hb₂ h₂ hf₂
  rw [hx₁] at a1; cases a1
  rw [hx₂] at b1; cases b1
  rw [hv₁, if_neg (by simp)] at a5
  rw [hv₂, if_neg (by simp)] at b5
  refine ⟨z₁, z₂, a2, b2, ?_⟩
  have h1 := fitMos_slope s hu₁ hu₂
  have h2 := abs_le.mp h1
  have h3 := abs_le.mp a5
  have h4 := abs_le.mp b5
  rw [abs_le]
  constructor <;> linarith [h2.1, h2.2, h3.1, h3.2, h4.1, h4.2]

/-- The hypotheses of `C86_mean`, `C86_range`, `C86_stable`, `C86_patches` and `C86_patches_score`: comparisons of two files with themselves, and of
one with the other. -/
example (p : Profile) : ∃ m m₁ r₁ m₂ r₂ m₃ r₃, Manager.new demoWorld 21 (.wideband false) 60 = .ok m ∧ m.mapper = .speech true ∧
    m.computeResults p (steadySignal 40000 20000) (steadySignal 40000 20000) = .ok (m₁, r₁) ∧
    m.computeResults p (steadySignal 40000 9000) (steadySignal 40000 9000) = .ok (m₂, r₂) ∧
    m.computeResults p (steadySignal 40000 20000) (steadySignal 41000 9000) = .ok (m₃, r₃) ∧
    |r₁.moslqo - r₂.moslqo| ≤ maxSlope true * |r₁.vnsim - r₂.vnsim| ∧ r₃.vnsim = mean (r₃.patchSims.map PatchSim.similarity) ∧
    (r₃.moslqo = 1 ∨ lowestScore true ≤ r₃.moslqo) ∧
    |r₁.moslqo - r₁.moslqo| ≤ maxSlope true * (2 * changedPatches r₁.patchSims r₁.patchSims / r₁.patchSims.length) := by
  obtain ⟨⟨m₁, r₁, h₁⟩, _⟩ := wideband_run p (le_refl 40000) (by omega) (le_refl 40000) (by omega)
    (by omega : (0 : Int) < 20000) demo_i16.1 demo_i16.1 demo_ref demo_ref (u := false) rfl
  obtain ⟨⟨m₂, r₂, h₂⟩, _⟩ := wideband_run p (le_refl 40000) (by omega) (le_refl 40000) (by omega)
    (by omega : (0 : Int) < 9000) demo_i16.2 demo_i16.2 (world := ⟨fun _ => steadyFile 40000 9000, fun _ => none⟩) (r := "") (d := "") rfl rfl (u := false) rfl
  obtain ⟨⟨m₃, r₃, h₃⟩, _⟩ := wideband_run p (le_refl 40000) (by omega) (by omega : 40000 ≤ 41000) (by omega)
    (by omega : (0 : Int) < 20000) demo_i16.1 demo_i16.2 demo_ref demo_deg (u := false) rfl
  have hl : (steadySignal 40000 20000).data.length + 30 * 60 < 2147483647 := by rw [steady_length]; norm_num
  have hl' : (steadySignal 40000 9000).data.length + 30 * 60 < 2147483647 := by rw [steady_length]; norm_num
  generalize steadySignal 40000 20000 = ref at *
  generalize steadySignal 41000 9000 = deg at *
  generalize steadySignal 40000 9000 = ref' at *
  have e1 := (C11_perfect (.inl rfl) hl h₁).2.2.1
  have e2 := (C11_perfect (.inl rfl) hl' h₂).2.2.1
  have k1 : 15 / 100 ≤ r₁.vnsim := by rw [e1]; norm_num
  exact ⟨_, m₁, r₁, m₂, r₂, m₃, r₃, rfl, rfl, h₁, h₂, h₃, C86_stable rfl rfl h₁ h₂ k1 (by rw [e2]; norm_num), C86_mean h₃,
    (C86_range rfl h₃).1, C86_patches_score rfl rfl h₁ h₁ k1 k1 rfl⟩

/-- The hypotheses of `C86_range_rounded` and `C86_stable_rounded`. -/
example (p : Profile) (u : Bool) : ∃ m' res, (⟨32, 60, .image 20, .speech u, FilterBank.new 32 50.0⟩ : Manager B64).computeResults p
    noSound (onset B64 1000 40000) = .ok (m', res) ∧
    (∃ y z, val res.vnsim = .fin y ∧ val res.moslqo = .fin z ∧ (z = 1 ∨ lowestScore u ≤ z) ∧ (y ≤ 1 → z ≤ bestScore u)) ∧
    ∃ z₁ z₂, val res.moslqo = .fin z₁ ∧ val res.moslqo = .fin z₂ ∧ |z₁ - z₂| ≤ maxSlope u * |(1 : ℝ) - 1| + 6 / 1000000 := by
  obtain ⟨m', res, h1, h2, h3⟩ := silent_speech_run p u
  have hlt : Flt.lt res.vnsim 0.15 = false := by
    obtain ⟨c, hc, hce⟩ := lit_near (F := B64) (m := 15) (e := 2) (x := 15 / 100) (by norm_num) (by norm_num) (by norm_num)
    rw [Is.lt h3 hc, decide_eq_false_iff_not]
    have := (abs_le.mp hce).2
    norm_num at this ⊢; linarith
  exact ⟨m', res, h1, C86_range_rounded rfl le_rfl h1 h2.bands, C86_stable_rounded rfl rfl le_rfl le_rfl h1 h1 h2.bands h2.bands h3 h3 hlt hlt le_rfl le_rfl⟩

end Visqol
