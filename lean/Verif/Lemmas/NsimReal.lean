import Verif.Lemmas.Conv
import Verif.Num.Real
import Verif.Spec.Stats
import Mathlib.Algebra.Order.BigOperators.Ring.Finset
import Mathlib.Algebra.BigOperators.Fin
import Mathlib.Tactic.Ring
import Mathlib.Tactic.Linarith
import Mathlib.Tactic.FieldSimp
import Mathlib.Tactic.Positivity

/-! # NSIM over the real numbers -/

set_option linter.unusedSectionVars false

namespace Visqol
open Finset

/-- The window weights. -/
noncomputable def nsimW (r c : Fin 3) : ℝ :=
  if r = 1 ∧ c = 1 then 0.619485845753726 else if r = 1 ∨ c = 1 then 0.0838251475442633 else 0.0113033910173052

theorem nsimW_pos (r c : Fin 3) : 0 < nsimW r c := by
  unfold nsimW
  split
  · norm_num
  · split <;> norm_num

theorem nsimW_sum : ∑ r, ∑ c, nsimW r c = 1 := by
  have h21 : ¬ (2 : Fin 3) = 1 := by decide
  simp only [Fin.sum_univ_three, nsimW]
  norm_num [h21]

theorem nsimAvg_real (x : Nat → Nat → ℝ) : nsimAvg x = ∑ r : Fin 3, ∑ c : Fin 3, nsimW r c * x r c := by
  have h21 : ¬ (2 : Fin 3) = 1 := by decide
  simp only [Fin.sum_univ_three, nsimW, nsimAvg, convSum, real_sci]
  norm_num [h21]
  ring

/-- The same as a single sum. -/
theorem nsimAvg_real' (x : Nat → Nat → ℝ) :
    nsimAvg x = ∑ q : Fin 3 × Fin 3, nsimW q.1 q.2 * x q.1 q.2 := by
  rw [nsimAvg_real, Fintype.sum_prod_type]

theorem nsimW_sum' : ∑ q : Fin 3 × Fin 3, nsimW q.1 q.2 = 1 := by
  rw [Fintype.sum_prod_type]; exact nsimW_sum

theorem nsimAvg_const (a : ℝ) : nsimAvg (fun _ _ => a) = a := by
  rw [nsimAvg_real', ← Finset.sum_mul, nsimW_sum', one_mul]

theorem nsimAvg_mono {x y : Nat → Nat → ℝ} (h : ∀ r < 3, ∀ c < 3, x r c ≤ y r c) : nsimAvg x ≤ nsimAvg y := by
  rw [nsimAvg_real', nsimAvg_real']
  apply Finset.sum_le_sum
  intro q _
  exact mul_le_mul_of_nonneg_left (h _ q.1.2 _ q.2.2) (nsimW_pos _ _).le

theorem nsim_cov (x y : Nat → Nat → ℝ) :
    nsimAvg (fun r c => x r c * y r c) - nsimAvg x * nsimAvg y =
      ∑ q : Fin 3 × Fin 3, nsimW q.1 q.2 * ((x q.1 q.2 - nsimAvg x) * (y q.1 q.2 - nsimAvg y)) := by
  have e : ∀ q : Fin 3 × Fin 3, nsimW q.1 q.2 * ((x q.1 q.2 - nsimAvg x) * (y q.1 q.2 - nsimAvg y)) =
      nsimW q.1 q.2 * (x q.1 q.2 * y q.1 q.2) - nsimAvg y * (nsimW q.1 q.2 * x q.1 q.2)
      - nsimAvg x * (nsimW q.1 q.2 * y q.1 q.2) + nsimAvg x * nsimAvg y * nsimW q.1 q.2 := by
    intro q; ring
  simp only [e, Finset.sum_add_distrib, Finset.sum_sub_distrib, ← Finset.mul_sum]
  rw [nsimW_sum', ← nsimAvg_real' x, ← nsimAvg_real' y, ← nsimAvg_real' (fun r c => x r c * y r c)]
  ring

theorem nsim_var_nonneg (x : Nat → Nat → ℝ) :
    0 ≤ nsimAvg (fun r c => x r c * x r c) - nsimAvg x * nsimAvg x := by
  rw [nsim_cov]
  apply Finset.sum_nonneg
  intro q _
  exact mul_nonneg (nsimW_pos _ _).le (mul_self_nonneg _)

theorem nsim_cauchy (x y : Nat → Nat → ℝ) :
    |nsimAvg (fun r c => x r c * y r c) - nsimAvg x * nsimAvg y| ≤
      Real.sqrt ((nsimAvg (fun r c => x r c * x r c) - nsimAvg x * nsimAvg x) *
        (nsimAvg (fun r c => y r c * y r c) - nsimAvg y * nsimAvg y)) := by
  apply Real.abs_le_sqrt
  rw [nsim_cov, nsim_cov, nsim_cov]
  have h := Finset.sum_mul_sq_le_sq_mul_sq (Finset.univ : Finset (Fin 3 × Fin 3))
    (fun q => Real.sqrt (nsimW q.1 q.2) * (x q.1 q.2 - nsimAvg x))
    (fun q => Real.sqrt (nsimW q.1 q.2) * (y q.1 q.2 - nsimAvg y))
  have s : ∀ q : Fin 3 × Fin 3, Real.sqrt (nsimW q.1 q.2) * Real.sqrt (nsimW q.1 q.2) = nsimW q.1 q.2 :=
    fun q => Real.mul_self_sqrt (nsimW_pos _ _).le
  have e1 : ∀ (u v : Fin 3 × Fin 3 → ℝ) (q : Fin 3 × Fin 3),
      Real.sqrt (nsimW q.1 q.2) * u q * (Real.sqrt (nsimW q.1 q.2) * v q) = nsimW q.1 q.2 * (u q * v q) := by
    intro u v q
    calc _ = (Real.sqrt (nsimW q.1 q.2) * Real.sqrt (nsimW q.1 q.2)) * (u q * v q) := by ring
      _ = _ := by rw [s]
  simp only [pow_two (Real.sqrt _ * _), e1 (fun q => x q.1 q.2 - nsimAvg x) (fun q => y q.1 q.2 - nsimAvg y),
    e1 (fun q => x q.1 q.2 - nsimAvg x) (fun q => x q.1 q.2 - nsimAvg x),
    e1 (fun q => y q.1 q.2 - nsimAvg y) (fun q => y q.1 q.2 - nsimAvg y)] at h
  exact h

theorem nsimC1_real : (nsimC1 : ℝ) = 0.0001 := by
  simp only [nsimC1, real_powf, real_sci]
  norm_num

theorem nsimC3_real : (nsimC3 : ℝ) = 0.00045 := by
  simp only [nsimC3, real_powf, real_sci]
  norm_num

theorem strDenom_real {e : ℝ} (h : 0 ≤ e) : strDenom e = Real.sqrt e + nsimC3 := by
  unfold strDenom
  rw [if_neg]; · rfl
  simp [h]

/-- One cell of the similarity map written with real operations. -/
theorem simCell_real (x y : Nat → Nat → ℝ) :
    simCell x y =
      ((2 * (nsimAvg x * nsimAvg y) + nsimC1) / (nsimAvg x ^ 2 + nsimAvg y ^ 2 + nsimC1)) *
      ((nsimAvg (fun r c => x r c * y r c) - nsimAvg x * nsimAvg y + nsimC3) /
        (Real.sqrt ((nsimAvg (fun r c => x r c * x r c) - nsimAvg x * nsimAvg x) *
        (nsimAvg (fun r c => y r c * y r c) - nsimAvg y * nsimAvg y)) + nsimC3)) := by
  unfold simCell
  simp only [real_lit2]
  rw [strDenom_real (mul_nonneg (nsim_var_nonneg x) (nsim_var_nonneg y))]
  congr 2
  · ring
  · ring

theorem ratio_bounds {a b c : ℝ} (hc : 0 < c) (h : |a| ≤ b) : -1 < (a + c) / (b + c) ∧ (a + c) / (b + c) ≤ 1 := by
  obtain ⟨h1, h2⟩ := abs_le.mp h
  have hb : 0 < b + c := by have := abs_nonneg a; linarith
  constructor
  · rw [lt_div_iff₀ hb]; linarith
  · rw [div_le_iff₀ hb]; linarith

theorem prod_bounds {a b : ℝ} (ha : -1 < a ∧ a ≤ 1) (hb : -1 < b ∧ b ≤ 1) : -1 < a * b ∧ a * b ≤ 1 := by
  constructor <;> nlinarith [ha.1, ha.2, hb.1, hb.2]

theorem simCell_bounds (x y : Nat → Nat → ℝ) : -1 < simCell x y ∧ simCell x y ≤ 1 := by
  rw [simCell_real]
  apply prod_bounds
  · apply ratio_bounds
    · rw [nsimC1_real]; norm_num
    · rw [abs_le]; constructor <;> nlinarith [sq_nonneg (nsimAvg x - nsimAvg y), sq_nonneg (nsimAvg x + nsimAvg y)]
  · apply ratio_bounds
    · rw [nsimC3_real]; norm_num
    · exact nsim_cauchy x y

theorem simCell_self (x : Nat → Nat → ℝ) : simCell x x = 1 := by
  rw [simCell_real]
  have hv := nsim_var_nonneg x
  have h1 : (0 : ℝ) < nsimC1 := by rw [nsimC1_real]; norm_num
  have h3 : (0 : ℝ) < nsimC3 := by rw [nsimC3_real]; norm_num
  rw [Real.sqrt_mul_self hv]
  have e1 : 2 * (nsimAvg x * nsimAvg x) + nsimC1 = nsimAvg x ^ 2 + nsimAvg x ^ 2 + nsimC1 := by ring
  have d1 : nsimAvg x ^ 2 + nsimAvg x ^ 2 + nsimC1 ≠ 0 := by positivity
  rw [e1, div_self d1, div_self (by linarith), one_mul]

theorem simCell_comm (x y : Nat → Nat → ℝ) : simCell x y = simCell y x := by
  rw [simCell_real, simCell_real]
  have e : ∀ a b : Nat → Nat → ℝ, (fun r c => a r c * b r c) = fun r c => b r c * a r c := by
    intro a b; funext r c; exact mul_comm _ _
  rw [e x y, mul_comm (nsimAvg x) (nsimAvg y), add_comm (nsimAvg x ^ 2), mul_comm (nsimAvg _ - nsimAvg x * nsimAvg x)]

/-! ## Means and deviations of rows -/

theorem list_sum_le {l : List ℝ} {b : ℝ} (h : ∀ x ∈ l, x ≤ b) : l.sum ≤ l.length * b := by
  induction l with
  | nil => simp
  | cons a l ih =>
    have h1 := h a (by simp)
    have h2 := ih (fun x hx => h x (by simp [hx]))
    simp only [List.sum_cons, List.length_cons]
    push_cast
    linarith

theorem list_lt_sum {l : List ℝ} {b : ℝ} (hl : l ≠ []) (h : ∀ x ∈ l, b < x) : l.length * b < l.sum := by
  induction l with
  | nil => exact absurd rfl hl
  | cons a l ih =>
    have h1 := h a (by simp)
    simp only [List.sum_cons, List.length_cons]
    push_cast
    by_cases hl' : l = []
    · subst hl'; simp; linarith
    · have h2 := ih hl' (fun x hx => h x (by simp [hx]))
      linarith

theorem mean_bounds {l : List ℝ} {n : ℝ} (hl : l ≠ []) (hn : n = l.length) (h : ∀ x ∈ l, -1 < x ∧ x ≤ 1) :
    -1 < l.sum / n ∧ l.sum / n ≤ 1 := by
  have hpos : (0 : ℝ) < l.length := by
    have : 0 < l.length := List.length_pos_iff.mpr hl
    exact_mod_cast this
  have h1 := list_sum_le (fun x hx => (h x hx).2)
  have h2 := list_lt_sum hl (fun x hx => (h x hx).1)
  subst hn
  constructor
  · rw [lt_div_iff₀ hpos]; linarith
  · rw [div_le_iff₀ hpos]; linarith

/-- A mean of numbers `≤ 1` that equals 1 has only ones. -/
theorem all_one_of_sum {l : List ℝ} (h : ∀ x ∈ l, x ≤ 1) (hs : l.sum = l.length) : ∀ x ∈ l, x = 1 := by
  induction l with
  | nil => simp
  | cons a l ih =>
    have h1 := h a (by simp)
    have h2 := list_sum_le (l := l) (b := 1) (fun x hx => h x (by simp [hx]))
    simp only [List.sum_cons, List.length_cons] at hs
    push_cast at hs
    have ha : a = 1 := by linarith
    intro x hx
    rcases List.mem_cons.mp hx with rfl | hx
    · exact ha
    · exact ih (fun x hx => h x (by simp [hx])) (by linarith) x hx

theorem sum_of_all_one {l : List ℝ} (h : ∀ x ∈ l, x = 1) : l.sum = l.length := by
  induction l with
  | nil => simp
  | cons a l ih =>
    simp only [List.sum_cons, List.length_cons, h a (by simp), ih (fun x hx => h x (by simp [hx]))]
    push_cast; ring

/-- Welford's recurrence computes the sum of squared deviations from the final mean. -/
theorem welford_real : ∀ (l : List ℝ) (i : Nat) (m s : ℝ), (0 : ℝ) < i + l.length →
    welford l i m s = s + (l.map fun x => (x - (i * m + l.sum) / (i + l.length)) ^ 2).sum
      + i * (m - (i * m + l.sum) / (i + l.length)) ^ 2
  | [], i, m, s, h => by
    simp only [welford, List.map_nil, List.sum_nil, List.length_nil]
    have hi : (i : ℝ) ≠ 0 := by simp at h; positivity
    have : ((i : ℝ) * m + 0) / (i + ((0 : Nat) : ℝ)) = m := by push_cast; field_simp; ring
    rw [this]; ring
  | x :: l, i, m, s, h => by
    simp only [welford, real_ofNat, real_mulAdd]
    have hi : ((i : ℝ) + 1) ≠ 0 := by positivity
    have hpos : (0 : ℝ) < ((i + 1 : Nat) : ℝ) + l.length := by positivity
    rw [welford_real l (i + 1) _ _ hpos]
    have e1 : (((i + 1 : Nat) : ℝ) * (m + (x - m) / ((i + 1 : Nat) : ℝ)) + l.sum) / (((i + 1 : Nat) : ℝ) + l.length) =
        (i * m + (x :: l).sum) / (i + (x :: l).length) := by
      simp only [List.sum_cons, List.length_cons]
      push_cast
      congr 1
      · field_simp; ring
      · ring
    rw [e1]
    generalize (i * m + (x :: l).sum) / (i + ((x :: l).length : ℝ)) = M
    simp only [List.map_cons, List.sum_cons]
    push_cast
    field_simp
    ring

theorem stdRow_real (l : List ℝ) : stdRow l = sampleStd l := by
  unfold stdRow sampleStd mean
  simp only [real_lit0, real_lit1, real_ofNat, real_sqrt]
  by_cases h : l = []
  · subst h; simp [welford]
  · have hpos : (0 : ℝ) < ((0 : Nat) : ℝ) + l.length := by
      have : 0 < l.length := List.length_pos_iff.mpr h
      push_cast; simpa using this
    rw [welford_real l 0 0 0 hpos]
    simp

theorem sampleStd_ones {l : List ℝ} (h : ∀ x ∈ l, x = 1) : sampleStd l = 0 := by
  unfold sampleStd mean
  have : (l.map fun x => (x - l.sum / l.length) ^ 2).sum = 0 := by
    apply List.sum_eq_zero
    intro y hy
    obtain ⟨x, hx, rfl⟩ := List.mem_map.mp hy
    have hl : (l.length : ℝ) ≠ 0 := by
      have : l ≠ [] := by rintro rfl; simp at hx
      have : 0 < l.length := List.length_pos_iff.mpr this
      positivity
    rw [h x hx, sum_of_all_one h, div_self hl]; norm_num
  rw [this]; simp

/-! ## When the comparison succeeds -/

theorem Mat.zip_ok {F : Type} [Flt F] {f : F → F → F} {a b c : Mat F} (h : Mat.zip f a b = .ok c) :
    a.ncols = b.ncols ∧ a.rows.length = b.rows.length ∧
      c = ⟨a.ncols, List.zipWith (List.zipWith f) a.rows b.rows⟩ := by
  unfold Mat.zip at h
  split at h
  · rename_i hc; cases h; exact ⟨hc.1, hc.2, rfl⟩
  · cases h

theorem conv2d_empty {F : Type} [Flt F] {p : Profile} {m c : Mat F} (hm : m.rows = [])
    (h : conv2d p nsimWindow m = .ok c) : c.rows = [] := by
  unfold conv2d at h
  obtain ⟨orc, h1, h⟩ := bind_ok h
  obtain ⟨occ, _, h⟩ := bind_ok h
  obtain ⟨rows, h3, h⟩ := bind_ok h
  cases h
  have : orc = 0 := by
    have e : (addMatrixBoundary m).nrows = 2 := by rw [addMatrixBoundary_nrows]; simp [Mat.nrows, hm]
    rw [e] at h1
    have e3 : (nsimWindow (F := F)).nrows = 3 := rfl
    rw [e3] at h1
    unfold outSize at h1
    rw [if_neg (by omega)] at h1
    cases p with
    | checked => cases h1
    | wrapping =>
      simp only [Except.ok.injEq] at h1
      rw [← h1]; decide
  subst this
  simp only [List.range_zero, mapE, Except.ok.injEq] at h3
  rw [← h3]

theorem measure_ok_inv {F : Type} [Flt F] {p : Profile} {ref deg : Mat F} {r : PatchSim F}
    (h : measurePatchSimilarity p ref deg = .ok r) : ref.SameShape deg ∧ 0 < ref.nrows ∧ 0 < ref.ncols := by
  unfold measurePatchSimilarity at h
  obtain ⟨sm, hsm, h⟩ := bind_ok h
  obtain ⟨en, hen, h⟩ := bind_ok h
  obtain ⟨means, hmeans, h⟩ := bind_ok h
  obtain ⟨sim, hsim, h⟩ := bind_ok h
  have hen := expect_ok hen
  have hmeans := expect_ok hmeans
  have hsim := expect_ok hsim
  have hdc : deg.ncols ≠ 0 := by
    intro h0; unfold Mat.meanRows at hen; rw [if_pos h0] at hen; cases hen
  unfold simMap at hsm
  obtain ⟨muRef, h1, hsm⟩ := bind_ok hsm
  obtain ⟨muDeg, h2, hsm⟩ := bind_ok hsm
  obtain ⟨refMuSq, h3, hsm⟩ := bind_ok hsm
  obtain ⟨degMuSq, h4, hsm⟩ := bind_ok hsm
  obtain ⟨muRD, h5, hsm⟩ := bind_ok hsm
  obtain ⟨refSq, h6, hsm⟩ := bind_ok hsm
  obtain ⟨degSq, h7, hsm⟩ := bind_ok hsm
  obtain ⟨cRefSq, h8, hsm⟩ := bind_ok hsm
  obtain ⟨sRefSq, h9, hsm⟩ := bind_ok hsm
  obtain ⟨cDegSq, h10, hsm⟩ := bind_ok hsm
  obtain ⟨sDegSq, h11, hsm⟩ := bind_ok hsm
  obtain ⟨refDeg, h12, hsm⟩ := bind_ok hsm
  obtain ⟨cRD, h13, hsm⟩ := bind_ok hsm
  obtain ⟨sRD, h14, hsm⟩ := bind_ok hsm
  obtain ⟨intDen, h15, hsm⟩ := bind_ok hsm
  obtain ⟨inten, h16, hsm⟩ := bind_ok hsm
  obtain ⟨strDen, h17, hsm⟩ := bind_ok hsm
  obtain ⟨str, h18, hsm⟩ := bind_ok hsm
  have z := Mat.zip_ok h12
  refine ⟨⟨z.2.1, z.1⟩, ?_, by omega⟩
  by_contra hn
  have hr : ref.rows = [] := List.length_eq_zero_iff.mp (by unfold Mat.nrows at hn; omega)
  have e1 := conv2d_empty hr h1
  have e5 := (Mat.zip_ok h5).2.2
  have e16 := (Mat.zip_ok h16).2.2
  have e := (Mat.zip_ok hsm).2.2
  have : sm.rows = [] := by
    rw [e]
    simp [e16, Mat.map, e5, e1]
  unfold Mat.meanRows at hmeans
  split at hmeans
  · cases hmeans
  · simp only [Option.some.injEq] at hmeans
    rw [this] at hmeans
    subst hmeans
    simp [meanOpt] at hsim

end Visqol
