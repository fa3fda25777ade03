import Verif.Lemmas.SvrReal

/-! # Values and an upper bound of the default model -/

namespace Visqol.Svr
open Finset

noncomputable section

/-- The positive and negative parts of the coefficients. -/
def P (i : ℕ) : ℝ := (pos.getD i 0 : ℝ) / 10 ^ 18
def N (i : ℕ) : ℝ := (neg.getD i 0 : ℝ) / 10 ^ 18

/-- What the vectors miss to perfect similarity. -/
def τ (i j : ℕ) : ℝ := ((cols.getD j []).getD i 0 : ℝ) / 10 ^ 11

theorem cols_len : cols.length = 32 := by decide +kernel
theorem vectors_len : defaultVectors.length = 317 := by decide +kernel

theorem rows_eq : defaultVectors = (List.range 317).map fun i =>
    ((pos.getD i 0 : ℤ) - (neg.getD i 0 : ℤ), cols.map fun c => (10 : ℤ) ^ 11 - (c.getD i 0 : ℕ)) := by
  have := (checkRows_spec _ _ _ _ rows_ok).2.2
  rwa [vectors_len] at this

theorem pos_len : pos.length = 317 := (checkRows_spec _ _ _ _ rows_ok).1.trans vectors_len
theorem neg_len : neg.length = 317 := (checkRows_spec _ _ _ _ rows_ok).2.1.trans vectors_len

theorem col_len : ∀ c ∈ cols, c.length = 317 := fun c hc => by simpa using List.all_eq_true.mp lengths_ok c hc

theorem zip_sum (f : ℝ → ℝ → ℝ) (g : List ℕ → ℝ) (v : List ℝ) : ∀ cs : List (List ℕ), v.length = cs.length →
    (List.zipWith f v (cs.map g)).sum = ∑ j ∈ range cs.length, f (v.getD j 0) (g (cs.getD j [])) := by
  induction v with
  | nil => intro cs h; cases cs <;> simp at h ⊢
  | cons a v ih =>
    intro cs h
    cases cs with
    | nil => simp at h
    | cons c cs =>
      rw [List.map_cons, List.zipWith_cons_cons, List.sum_cons, ih cs (by simpa using h), List.length_cons, sum_range_succ', add_comm]
      simp

theorem range_sum (f : ℕ → ℝ) (c : ℕ) : ((List.range c).map f).sum = ∑ k ∈ range c, f k := by
  induction c with
  | zero => simp
  | succ c ih => rw [List.range_succ, List.map_append, List.sum_append, ih, Finset.sum_range_succ]; simp

/-- The prediction as a double sum. -/
theorem value_eq {v : List ℝ} (hv : v.length = 32) : (defaultSvr (F := ℝ)).value v =
    ∑ i ∈ range 317, (P i - N i) * Real.exp (-(1 / 100 * ∑ j ∈ range 32, (τ i j - (1 - v.getD j 0)) ^ 2)) + 36816207123583506 / 10 ^ 16 := by
  unfold RbfSvr.value defaultSvr
  rw [rows_eq]
  simp only [real_sum, List.map_map]
  rw [range_sum, sub_eq_add_neg]
  congr 1
  · refine sum_congr rfl fun i _ => ?_
    simp only [Function.comp, List.map_map]
    rw [zip_sum _ _ v cols (by rw [hv, cols_len]), cols_len]
    congr 1
    · simp only [real_ofInt, real_ofNat, P, N]; push_cast; ring
    · rw [real_exp]
      congr 2
      congr 1
      · simp only [real_sci]; norm_num
      · refine sum_congr rfl fun j _ => ?_
        simp only [Function.comp, real_ofInt, real_ofNat, τ]; push_cast
        ring
  · simp only [real_sci]; norm_num

/-! ## Evaluation at given similarities -/

theorem P_nonneg (i : ℕ) : 0 ≤ P i := by unfold P; positivity
theorem N_nonneg (i : ℕ) : 0 ≤ N i := by unfold N; positivity
theorem τ_nonneg (i j : ℕ) : 0 ≤ τ i j := by unfold τ; positivity

theorem coef_sum : ∑ i ∈ range 317, (P i + N i) ≤ 313 := by
  have h : ((sumNat pos + sumNat neg : ℕ) : ℝ) ≤ ((313 * 10 ^ 18 : ℕ) : ℝ) := Nat.cast_le.mpr coef_le
  rw [Nat.cast_add, sumNat_cast pos 317 pos_len.le, sumNat_cast neg 317 neg_len.le, ← sum_add_distrib] at h
  have e : ∑ i ∈ range 317, (P i + N i) = (∑ i ∈ range 317, ((pos.getD i 0 : ℝ) + (neg.getD i 0 : ℝ))) / 10 ^ 18 := by
    rw [sum_div]
    exact sum_congr rfl fun i _ => by unfold P N; ring
  rw [e, div_le_iff₀ (by norm_num)]
  push_cast at h
  linarith

/-- The squared distance from similarities that miss `ws` (in units of `10^-11`). -/
theorem dist_eq {ws : List ℕ} {i : ℕ} (hi : i < 317) :
    1 / 100 * ∑ j ∈ range 32, (τ i j - (ws.getD j 0 : ℝ) / 10 ^ 11) ^ 2 = ((dists cols ws).getD i 0 : ℝ) / 10 ^ 24 := by
  have h := (dists_spec cols ws col_len).2 i hi
  rw [cols_len] at h
  rw [h, sum_div, mul_sum]
  refine sum_congr rfl fun j _ => ?_
  unfold τ
  ring

theorem map_getD (f : ℕ → ℕ) (l : List ℕ) (i : ℕ) (h : i < l.length) : (l.map f).getD i 0 = f (l.getD i 0) := by
  simp [List.getD, h]

theorem getD_all {l : List ℕ} {b : ℕ} (h : l.all (fun x => decide (x ≤ b)) = true) (i : ℕ) : l.getD i 0 ≤ b := by
  by_cases hi : i < l.length
  · have : l.getD i 0 = l[i] := by simp [List.getD, hi]
    rw [this]
    simpa using List.all_eq_true.mp h _ (List.getElem_mem hi)
  · have : l.getD i 0 = 0 := by simp [List.getD, List.getElem?_eq_none (not_lt.mp hi)]
    omega

/-- A value of the model from sums that the kernel evaluates. -/
theorem value_near {ws ds ks : List ℕ} {a b : ℕ} {v : List ℝ} (hv : v.length = 32)
    (hw : ∀ j < 32, v.getD j 0 = 1 - (ws.getD j 0 : ℝ) / 10 ^ 11) (hd : dists cols ws = ds) (hk : ds.map expNat = ks)
    (hs : ds.all (fun x => decide (x ≤ 4 * 10 ^ 23)) = true) (ha : dot2 pos ks = a) (hb : dot2 neg ks = b) :
    |(defaultSvr (F := ℝ)).value v - (((a : ℝ) - b) / 10 ^ 33 + 36816207123583506 / 10 ^ 16)| ≤ 4 / 10 ^ 8 := by
  have hl : ds.length = 317 := by rw [← hd]; exact (dists_spec cols ws col_len).1
  have hab : ((a : ℝ) - b) / 10 ^ 33 = ∑ i ∈ range 317, (P i - N i) * ((ks.getD i 0 : ℝ) / 10 ^ 15) := by
    rw [← ha, ← hb, dot2_cast pos ks 317 pos_len.le, dot2_cast neg ks 317 neg_len.le, ← sum_sub_distrib, sum_div]
    exact sum_congr rfl fun i _ => by unfold P N; ring
  rw [value_eq hv, hab, add_sub_add_right_eq_sub, ← sum_sub_distrib]
  have hterm : ∀ i ∈ range 317, |(P i - N i) * Real.exp (-(1 / 100 * ∑ j ∈ range 32, (τ i j - (1 - v.getD j 0)) ^ 2)) -
      (P i - N i) * ((ks.getD i 0 : ℝ) / 10 ^ 15)| ≤ (P i + N i) * (1 / 10 ^ 10) := by
    intro i hi
    have hi := mem_range.mp hi
    have e : ∑ j ∈ range 32, (τ i j - (1 - v.getD j 0)) ^ 2 = ∑ j ∈ range 32, (τ i j - (ws.getD j 0 : ℝ) / 10 ^ 11) ^ 2 :=
      sum_congr rfl fun j hj => by rw [hw j (mem_range.mp hj)]; ring
    rw [e, dist_eq hi, hd, ← mul_sub, abs_mul, ← hk, map_getD _ _ _ (by omega)]
    have h1 : |P i - N i| ≤ P i + N i := by
      have := P_nonneg i; have := N_nonneg i
      rw [abs_le]; constructor <;> linarith
    exact mul_le_mul h1 (expNat_near (getD_all hs i)) (abs_nonneg _) (add_nonneg (P_nonneg i) (N_nonneg i))
  refine (abs_sum_le_sum_abs _ _).trans ((sum_le_sum hterm).trans ?_)
  rw [← sum_mul]
  have := coef_sum
  have h2 : (∑ i ∈ range 317, (P i + N i)) * (1 / 10 ^ 10) ≤ 313 * (1 / 10 ^ 10) := mul_le_mul_of_nonneg_right this (by norm_num)
  refine h2.trans (by norm_num)

end
end Visqol.Svr
