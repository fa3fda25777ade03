import Verif.Lemmas.SvrValue

/-! # The default model stays away from the best quality -/

namespace Visqol.Svr
open Finset

noncomputable section

/-- The kernel at perfect similarity, as evaluated. -/
def κ (i : ℕ) : ℝ := (kern.getD i 0 : ℝ) / 10 ^ 15

theorem sq_len : sq.length = 317 := by rw [← sq_ok]; exact (dists_spec cols [] col_len).1
theorem tot_len : tot.length = 317 := by rw [← tot_ok]; exact (totals_spec cols col_len).1
theorem kern_len : kern.length = 317 := by rw [← kern_ok, List.length_map, sq_len]

theorem zip_getD (l m : List ℕ) (i : ℕ) (h : l.length = m.length) :
    (List.zipWith (· * ·) l m).getD i 0 = l.getD i 0 * m.getD i 0 := by
  by_cases hi : i < l.length
  · have hm : i < m.length := h ▸ hi
    simp [List.getD, hi, hm]
  · have hm : m.length ≤ i := h ▸ not_lt.mp hi
    have h1 : l.getD i 0 = 0 := by simp [List.getD, List.getElem?_eq_none (not_lt.mp hi)]
    have h2 : (List.zipWith (· * ·) l m).length ≤ i := by rw [List.length_zipWith]; omega
    rw [h1, Nat.zero_mul, List.getD, List.getElem?_eq_none h2]; rfl

theorem wpos_eq (i : ℕ) : (wpos.getD i 0 : ℝ) = (pos.getD i 0 : ℝ) * (kern.getD i 0 : ℝ) := by
  rw [← wpos_ok, zip_getD _ _ _ (by rw [pos_len, kern_len]), Nat.cast_mul]

theorem wneg_eq (i : ℕ) : (wneg.getD i 0 : ℝ) = (neg.getD i 0 : ℝ) * (kern.getD i 0 : ℝ) := by
  rw [← wneg_ok, zip_getD _ _ _ (by rw [neg_len, kern_len]), Nat.cast_mul]

theorem wpos_len : wpos.length ≤ 317 := by rw [← wpos_ok, List.length_zipWith, pos_len, kern_len]; exact le_refl _
theorem wneg_len : wneg.length ≤ 317 := by rw [← wneg_ok, List.length_zipWith, neg_len, kern_len]; exact le_refl _

theorem sq_eq {i : ℕ} (hi : i < 317) : ∑ j ∈ range 32, τ i j ^ 2 = (sq.getD i 0 : ℝ) / 10 ^ 22 := by
  have h := dist_eq (ws := []) hi
  rw [sq_ok] at h
  simp only [List.getD_nil, Nat.cast_zero, zero_div, sub_zero] at h
  linarith

theorem tot_eq {i : ℕ} (hi : i < 317) : ∑ j ∈ range 32, τ i j = (tot.getD i 0 : ℝ) / 10 ^ 11 := by
  have h := (totals_spec cols col_len).2 i hi
  rw [cols_len, tot_ok] at h
  rw [h, sum_div]
  rfl

theorem κ_near {i : ℕ} (hi : i < 317) : |Real.exp (-(1 / 100 * ∑ j ∈ range 32, τ i j ^ 2)) - κ i| ≤ 1 / 10 ^ 10 := by
  have h := expNat_near (x := sq.getD i 0) ((getD_all squares_small i).trans (by norm_num))
  rw [sq_eq hi, κ, ← kern_ok, map_getD _ _ _ (by rw [sq_len]; exact hi)]
  have e : 1 / 100 * ((sq.getD i 0 : ℝ) / 10 ^ 22) = (sq.getD i 0 : ℝ) / 10 ^ 24 := by ring
  rw [e]
  exact h

theorem const_bound : ∑ i ∈ range 317, (P i - N i) * κ i ≤ 1050481 / 10 ^ 6 := by
  obtain ⟨h0, -⟩ := const_le
  have h := (Nat.cast_le (α := ℝ)).mpr h0
  rw [Nat.cast_add, sumNat_cast wpos 317 wpos_len, sumNat_cast wneg 317 wneg_len] at h
  have e : ∑ i ∈ range 317, (P i - N i) * κ i =
      (∑ i ∈ range 317, (wpos.getD i 0 : ℝ) - ∑ i ∈ range 317, (wneg.getD i 0 : ℝ)) / 10 ^ 33 := by
    rw [← sum_sub_distrib, sum_div]
    exact sum_congr rfl fun i _ => by rw [wpos_eq, wneg_eq]; unfold P N κ; ring
  rw [e, div_le_iff₀ (by norm_num)]
  push_cast at h
  linarith

theorem trunc_ge (a b : ℕ) : (a : ℝ) - b ≤ ((a - b : ℕ) : ℝ) := by
  rcases le_total b a with h | h
  · rw [Nat.cast_sub h]
  · rw [Nat.sub_eq_zero_of_le h]
    have : (a : ℝ) ≤ b := by exact_mod_cast h
    push_cast; linarith

theorem lin_bound {w : ℕ → ℝ} (hw : ∀ j < 32, 0 ≤ w j ∧ w j ≤ 2) :
    ∑ j ∈ range 32, w j * ∑ i ∈ range 317, (P i - N i) * κ i * τ i j ≤ 218 / 100 := by
  have e : ∀ j, ∑ i ∈ range 317, (P i - N i) * κ i * τ i j =
      ((dot2 wpos (cols.getD j []) : ℝ) - dot2 wneg (cols.getD j [])) / 10 ^ 44 := by
    intro j
    rw [dot2_cast wpos _ 317 wpos_len, dot2_cast wneg _ 317 wneg_len, ← sum_sub_distrib, sum_div]
    exact sum_congr rfl fun i _ => by rw [wpos_eq, wneg_eq]; unfold P N κ τ; ring
  have h : ((linPos : ℕ) : ℝ) ≤ ((109 * 10 ^ 42 : ℕ) : ℝ) := Nat.cast_le.mpr lin_le
  rw [linPos, sumNat_map _ [], cols_len] at h
  have h1 : ∀ j ∈ range 32, w j * ∑ i ∈ range 317, (P i - N i) * κ i * τ i j ≤
      2 / 10 ^ 44 * ((dot2 wpos (cols.getD j []) - dot2 wneg (cols.getD j []) : ℕ) : ℝ) := by
    intro j hj
    obtain ⟨w0, w2⟩ := hw j (mem_range.mp hj)
    rw [e]
    have t := trunc_ge (dot2 wpos (cols.getD j [])) (dot2 wneg (cols.getD j []))
    have t0 : (0 : ℝ) ≤ ((dot2 wpos (cols.getD j []) - dot2 wneg (cols.getD j []) : ℕ) : ℝ) := Nat.cast_nonneg _
    generalize ((dot2 wpos (cols.getD j []) - dot2 wneg (cols.getD j []) : ℕ) : ℝ) = T at t t0 ⊢
    have h2 := mul_le_mul_of_nonneg_left t w0
    have h3 := mul_le_mul_of_nonneg_right w2 t0
    have h4 : w j * (((dot2 wpos (cols.getD j []) : ℝ) - dot2 wneg (cols.getD j [])) / 10 ^ 44) =
      w j * ((dot2 wpos (cols.getD j []) : ℝ) - dot2 wneg (cols.getD j [])) / 10 ^ 44 := by ring
    rw [h4, div_le_iff₀ (by norm_num)]
    have h5 : 2 / 10 ^ 44 * T * 10 ^ 44 = 2 * T := by field_simp
    rw [h5]
    exact h2.trans h3
  refine (sum_le_sum h1).trans ?_
  rw [← mul_sum]
  have : (2 / 10 ^ 44 : ℝ) * ((109 * 10 ^ 42 : ℕ) : ℝ) ≤ 218 / 100 := by norm_num
  exact (mul_le_mul_of_nonneg_left h (by norm_num)).trans this

theorem quad_bound {w : ℕ → ℝ} (hw : ∀ j < 32, 0 ≤ w j ∧ w j ≤ 2) :
    ∑ j ∈ range 32, w j * ∑ k ∈ range 32, w k * ∑ i ∈ range 317, (P i - N i) * κ i * τ i j * τ i k ≤ 576 := by
  have e : ∀ j k, ∑ i ∈ range 317, (P i - N i) * κ i * τ i j * τ i k =
      ((dot3 wpos (cols.getD j []) (cols.getD k []) : ℝ) - dot3 wneg (cols.getD j []) (cols.getD k [])) / 10 ^ 55 := by
    intro j k
    rw [dot3_cast wpos _ _ 317 wpos_len, dot3_cast wneg _ _ 317 wneg_len, ← sum_sub_distrib, sum_div]
    exact sum_congr rfl fun i _ => by rw [wpos_eq, wneg_eq]; unfold P N κ τ; ring
  have h : ((sumNat (cols.map quadRow) : ℕ) : ℝ) ≤ ((144 * 10 ^ 55 : ℕ) : ℝ) := Nat.cast_le.mpr quad_le
  rw [sumNat_map _ [], cols_len] at h
  have hrow : ∀ j, (quadRow (cols.getD j []) : ℝ) = ∑ k ∈ range 32,
      ((dot3 wpos (cols.getD j []) (cols.getD k []) - dot3 wneg (cols.getD j []) (cols.getD k []) : ℕ) : ℝ) := by
    intro j
    rw [quadRow, sumNat_map _ [], cols_len]
  have h1 : ∀ j k, k < 32 → w k * ∑ i ∈ range 317, (P i - N i) * κ i * τ i j * τ i k ≤
      2 / 10 ^ 55 * ((dot3 wpos (cols.getD j []) (cols.getD k []) - dot3 wneg (cols.getD j []) (cols.getD k []) : ℕ) : ℝ) := by
    intro j k hk
    obtain ⟨w0, w2⟩ := hw k hk
    rw [e]
    generalize hx : dot3 wpos (cols.getD j []) (cols.getD k []) = x
    generalize hy : dot3 wneg (cols.getD j []) (cols.getD k []) = y
    have t := trunc_ge x y
    have t0 : (0 : ℝ) ≤ ((x - y : ℕ) : ℝ) := Nat.cast_nonneg _
    generalize ((x - y : ℕ) : ℝ) = T at t t0 ⊢
    have h2 := mul_le_mul_of_nonneg_left t w0
    have h3 := mul_le_mul_of_nonneg_right w2 t0
    have h4 : w k * (((x : ℝ) - y) / 10 ^ 55) = w k * ((x : ℝ) - y) / 10 ^ 55 := by ring
    rw [h4, div_le_iff₀ (by norm_num)]
    have h5 : 2 / 10 ^ 55 * T * 10 ^ 55 = 2 * T := by field_simp
    rw [h5]
    exact h2.trans h3
  have h2 : ∀ j ∈ range 32, w j * ∑ k ∈ range 32, w k * ∑ i ∈ range 317, (P i - N i) * κ i * τ i j * τ i k ≤
      4 / 10 ^ 55 * (quadRow (cols.getD j []) : ℝ) := by
    intro j hj
    obtain ⟨w0, w2⟩ := hw j (mem_range.mp hj)
    have k1 : ∑ k ∈ range 32, w k * ∑ i ∈ range 317, (P i - N i) * κ i * τ i j * τ i k ≤ 2 / 10 ^ 55 * (quadRow (cols.getD j []) : ℝ) := by
      rw [hrow, mul_sum]
      exact sum_le_sum fun k hk => h1 j k (mem_range.mp hk)
    have t0 : (0 : ℝ) ≤ (quadRow (cols.getD j []) : ℝ) := Nat.cast_nonneg _
    generalize (quadRow (cols.getD j []) : ℝ) = T at k1 t0 ⊢
    refine (mul_le_mul_of_nonneg_left k1 w0).trans ?_
    have k2 := mul_le_mul_of_nonneg_right w2 (by positivity : 0 ≤ 2 / 10 ^ 55 * T)
    refine k2.trans (le_of_eq (by ring))
  refine (sum_le_sum h2).trans ?_
  rw [← mul_sum]
  have : (4 / 10 ^ 55 : ℝ) * ((144 * 10 ^ 55 : ℕ) : ℝ) ≤ 576 := by norm_num
  exact (mul_le_mul_of_nonneg_left h (by norm_num)).trans this

/-- What is left after the quadratic terms, for similarities near perfect. -/
theorem rest_near {q : ℝ} {z : ℕ → ℝ} (hq : q ≤ 11)
    (hz : ∀ i < 317, 0 ≤ z i ∧ z i ^ 2 ≤ 1 / 2500 * q * ∑ j ∈ range 32, τ i j ^ 2) :
    ∑ i ∈ range 317, P i * Real.exp (-(1 / 100 * ∑ j ∈ range 32, τ i j ^ 2)) * (z i ^ 3 * (16 + 5 * z i) / 96) ≤ 33 / 1000 := by
  have h : ((dot2 pos sq : ℕ) : ℝ) ≤ ((164 * 10 ^ 40 : ℕ) : ℝ) := Nat.cast_le.mpr squares_le
  rw [dot2_cast pos sq 317 pos_len.le] at h
  have h1 : ∀ i ∈ range 317, P i * Real.exp (-(1 / 100 * ∑ j ∈ range 32, τ i j ^ 2)) * (z i ^ 3 * (16 + 5 * z i) / 96) ≤
      2 / 10 ^ 44 * ((pos.getD i 0 : ℝ) * (sq.getD i 0 : ℝ)) := by
    intro i hi
    have hi := mem_range.mp hi
    obtain ⟨z0, z2⟩ := hz i hi
    rw [sq_eq hi] at z2 ⊢
    have s14 : (sq.getD i 0 : ℝ) ≤ 14 * 10 ^ 22 := by exact_mod_cast getD_all squares_small i
    have s0 : (0 : ℝ) ≤ (sq.getD i 0 : ℝ) := Nat.cast_nonneg _
    have he : Real.exp (-(1 / 100 * ((sq.getD i 0 : ℝ) / 10 ^ 22))) ≤ 1 := Real.exp_le_one_iff.mpr (by
      have : 0 ≤ (sq.getD i 0 : ℝ) / 10 ^ 22 := by positivity
      linarith)
    have hS : (sq.getD i 0 : ℝ) / 10 ^ 22 ≤ 14 := by rw [div_le_iff₀ (by norm_num)]; exact s14
    have hS0 : 0 ≤ (sq.getD i 0 : ℝ) / 10 ^ 22 := by positivity
    have hR : (2 : ℝ) / 10 ^ 44 * ((pos.getD i 0 : ℝ) * (sq.getD i 0 : ℝ)) = P i * (2 / 10 ^ 4 * ((sq.getD i 0 : ℝ) / 10 ^ 22)) := by
      unfold P; ring
    rw [hR]
    generalize (sq.getD i 0 : ℝ) / 10 ^ 22 = S at *
    generalize z i = y at *
    have y2 : y ^ 2 ≤ 44 / 10000 * S := by
      have := mul_le_mul_of_nonneg_right hq hS0
      linarith
    have y1 : y ≤ 249 / 1000 := by nlinarith
    have r1 : y ^ 3 * (16 + 5 * y) / 96 ≤ 2 / 10 ^ 4 * S := by
      have a : y * (16 + 5 * y) / 96 ≤ 449 / 10000 := by nlinarith
      have b : y ^ 3 * (16 + 5 * y) / 96 = y ^ 2 * (y * (16 + 5 * y) / 96) := by ring
      rw [b]
      have c : y ^ 2 * (y * (16 + 5 * y) / 96) ≤ (44 / 10000 * S) * (449 / 10000) :=
        mul_le_mul y2 a (by positivity) (by positivity)
      refine c.trans ?_
      nlinarith
    have r0 : 0 ≤ y ^ 3 * (16 + 5 * y) / 96 := tail_nonneg z0
    calc P i * Real.exp (-(1 / 100 * S)) * (y ^ 3 * (16 + 5 * y) / 96)
        ≤ P i * 1 * (y ^ 3 * (16 + 5 * y) / 96) :=
          mul_le_mul_of_nonneg_right (mul_le_mul_of_nonneg_left he (P_nonneg i)) r0
      _ ≤ P i * (2 / 10 ^ 4 * S) := by rw [mul_one]; exact mul_le_mul_of_nonneg_left r1 (P_nonneg i)
  refine (sum_le_sum h1).trans ?_
  rw [← mul_sum]
  refine (mul_le_mul_of_nonneg_left h (by norm_num)).trans ?_
  norm_num

/-- What is left after the quadratic terms, for all similarities. -/
theorem rest_far {z : ℕ → ℝ} (hz : ∀ i < 317, 0 ≤ z i ∧ z i ≤ 1 / 25 * ∑ j ∈ range 32, τ i j) :
    ∑ i ∈ range 317, P i * Real.exp (-(1 / 100 * ∑ j ∈ range 32, τ i j ^ 2)) * (z i ^ 3 * (16 + 5 * z i) / 96) ≤ 178 / 1000 := by
  have h : ((tail wpos tot : ℕ) : ℝ) ≤ ((17 * 10 ^ 85 : ℕ) : ℝ) := Nat.cast_le.mpr tail_le
  rw [tail_cast wpos tot 317 wpos_len] at h
  have h1 : ∀ i ∈ range 317, P i * Real.exp (-(1 / 100 * ∑ j ∈ range 32, τ i j ^ 2)) * (z i ^ 3 * (16 + 5 * z i) / 96) ≤
      1 / (96 * 10 ^ 85) * ((wpos.getD i 0 : ℝ) * ((4 * (tot.getD i 0 : ℝ)) ^ 3 * (16 * 10 ^ 13 + 5 * (4 * (tot.getD i 0 : ℝ))))) +
        1 / 10 ^ 10 * (P i + N i) := by
    intro i hi
    have hi := mem_range.mp hi
    obtain ⟨z0, z1⟩ := hz i hi
    rw [tot_eq hi] at z1
    have t15 : (tot.getD i 0 : ℝ) ≤ 15 * 10 ^ 11 := by exact_mod_cast getD_all totals_small i
    have hk := (abs_le.mp (κ_near hi)).2
    have e0 := (Real.exp_pos (-(1 / 100 * ∑ j ∈ range 32, τ i j ^ 2))).le
    generalize Real.exp (-(1 / 100 * ∑ j ∈ range 32, τ i j ^ 2)) = e at hk e0 ⊢
    have m := tail_mono z0 z1
    have r0 := tail_nonneg z0
    have y35 : 1 / 25 * ((tot.getD i 0 : ℝ) / 10 ^ 11) ≤ 3 / 5 := by
      have : (tot.getD i 0 : ℝ) / 10 ^ 11 ≤ 15 := by rw [div_le_iff₀ (by norm_num)]; exact t15
      linarith
    have hR : 1 / (96 * 10 ^ 85) * ((wpos.getD i 0 : ℝ) * ((4 * (tot.getD i 0 : ℝ)) ^ 3 * (16 * 10 ^ 13 + 5 * (4 * (tot.getD i 0 : ℝ))))) =
        P i * κ i * ((1 / 25 * ((tot.getD i 0 : ℝ) / 10 ^ 11)) ^ 3 * (16 + 5 * (1 / 25 * ((tot.getD i 0 : ℝ) / 10 ^ 11))) / 96) := by
      rw [wpos_eq]; unfold P κ
      generalize (tot.getD i 0 : ℝ) = t
      ring
    rw [hR]
    have y0 : 0 ≤ 1 / 25 * ((tot.getD i 0 : ℝ) / 10 ^ 11) := by positivity
    generalize 1 / 25 * ((tot.getD i 0 : ℝ) / 10 ^ 11) = y at *
    have b1 : y ^ 3 * (16 + 5 * y) / 96 ≤ 1 := by
      have := tail_mono y0 y35
      refine this.trans (by norm_num)
    have b0 : 0 ≤ y ^ 3 * (16 + 5 * y) / 96 := tail_nonneg y0
    generalize y ^ 3 * (16 + 5 * y) / 96 = Y at *
    generalize z i ^ 3 * (16 + 5 * z i) / 96 = Z at *
    have p0 := P_nonneg i
    have n0 := N_nonneg i
    have c1 : P i * e * Z ≤ P i * e * Y := mul_le_mul_of_nonneg_left m (mul_nonneg p0 e0)
    have c2 : P i * Y * (e - κ i) ≤ P i * Y * (1 / 10 ^ 10) := mul_le_mul_of_nonneg_left hk (mul_nonneg p0 b0)
    have c3 : P i * Y ≤ P i * 1 := mul_le_mul_of_nonneg_left b1 p0
    linarith
  refine (sum_le_sum h1).trans ?_
  rw [sum_add_distrib, ← mul_sum, ← mul_sum]
  have a := mul_le_mul_of_nonneg_left h (by norm_num : (0 : ℝ) ≤ 1 / (96 * 10 ^ 85))
  have b := mul_le_mul_of_nonneg_left coef_sum (by norm_num : (0 : ℝ) ≤ 1 / 10 ^ 10)
  refine (add_le_add a b).trans ?_
  norm_num

/-- For similarities in `[-1, 1]` the prediction stays below 4.93. -/
theorem value_le {v : List ℝ} (hv : v.length = 32) (h : ∀ j < 32, -1 ≤ v.getD j 0 ∧ v.getD j 0 ≤ 1) :
    (defaultSvr (F := ℝ)).value v ≤ 493 / 100 := by
  rw [value_eq hv]
  have hw : ∀ j < 32, 0 ≤ 1 - v.getD j 0 ∧ 1 - v.getD j 0 ≤ 2 := fun j hj => by
    obtain ⟨a, b⟩ := h j hj; constructor <;> linarith
  obtain ⟨z, hz, hG⟩ := expansion_le (n := 317) (m := 32) (P := P) (N := N) (κ := κ)
    (e := fun i => Real.exp (-(1 / 100 * ∑ j ∈ range 32, τ i j ^ 2))) (τ := τ) (w := fun j => 1 - v.getD j 0)
    (ε := 1 / 10 ^ 10) (A := 1050481 / 10 ^ 6) (L := 218 / 100) (Q := 576) (C := 313) (q := ∑ j ∈ range 32, (1 - v.getD j 0) ^ 2)
    (by norm_num) (fun i _ => P_nonneg i) (fun i _ => N_nonneg i) (fun _ => rfl) (fun i hi => κ_near hi) τ_nonneg hw
    (fun i hi => by
      rw [tot_eq hi, div_le_iff₀ (by norm_num)]
      exact_mod_cast getD_all totals_small i)
    const_bound (lin_bound hw) (quad_bound hw) coef_sum rfl
  have hq0 : 0 ≤ ∑ j ∈ range 32, (1 - v.getD j 0) ^ 2 := sum_nonneg fun j _ => sq_nonneg _
  generalize (∑ j ∈ range 32, (1 - v.getD j 0) ^ 2) = q at hz hG hq0
  suffices hle : max 0 (Real.exp (-(1 / 100 * q)) * (1050481 / 10 ^ 6 + 218 / 100 / 50 + 576 / 5000 + 2 * (1 / 10 ^ 10) * 313 +
      ∑ i ∈ range 317, P i * Real.exp (-(1 / 100 * ∑ j ∈ range 32, τ i j ^ 2)) * (z i ^ 3 * (16 + 5 * z i) / 96))) ≤ 1248 / 1000 by
    have := hG.trans hle
    have : (1248 / 1000 + 36816207123583506 / 10 ^ 16 : ℝ) ≤ 493 / 100 := by norm_num
    linarith
  refine max_le (by norm_num) ?_
  rcases le_total q 11 with hq | hq
  · have hr := rest_near hq (z := z) fun i hi => ⟨(hz i hi).1, (hz i hi).2.2⟩
    have he : Real.exp (-(1 / 100 * q)) ≤ 1 := Real.exp_le_one_iff.mpr (by linarith)
    have hs : 0 ≤ ∑ i ∈ range 317, P i * Real.exp (-(1 / 100 * ∑ j ∈ range 32, τ i j ^ 2)) * (z i ^ 3 * (16 + 5 * z i) / 96) :=
      sum_nonneg fun i hi => mul_nonneg (mul_nonneg (P_nonneg i) (Real.exp_pos _).le) (tail_nonneg (hz i (mem_range.mp hi)).1)
    generalize ∑ i ∈ range 317, P i * Real.exp (-(1 / 100 * ∑ j ∈ range 32, τ i j ^ 2)) * (z i ^ 3 * (16 + 5 * z i) / 96) = r at *
    have b : (1050481 / 10 ^ 6 + 218 / 100 / 50 + 576 / 5000 + 2 * (1 / 10 ^ 10) * 313 + r : ℝ) ≤ 1248 / 1000 := by
      have : (1050481 / 10 ^ 6 + 218 / 100 / 50 + 576 / 5000 + 2 * (1 / 10 ^ 10) * 313 + 33 / 1000 : ℝ) ≤ 1248 / 1000 := by norm_num
      linarith
    calc _ ≤ 1 * (1050481 / 10 ^ 6 + 218 / 100 / 50 + 576 / 5000 + 2 * (1 / 10 ^ 10) * 313 + r) :=
          mul_le_mul_of_nonneg_right he (by positivity)
      _ ≤ _ := by rw [one_mul]; exact b
  · have hr := rest_far (z := z) fun i hi => ⟨(hz i hi).1, (hz i hi).2.1⟩
    have he : Real.exp (-(1 / 100 * q)) ≤ 897 / 1000 := by
      have h1 : Real.exp (-(1 / 100 * q)) ≤ Real.exp (-(11 / 100)) := Real.exp_le_exp.mpr (by linarith)
      have h2 := (exp_tail (z := 11 / 100) (by norm_num) (by norm_num)).1
      refine h1.trans ?_
      rw [Real.exp_neg]
      rw [inv_le_comm₀ (Real.exp_pos _) (by norm_num)]
      refine le_trans ?_ h2
      norm_num
    have hs : 0 ≤ ∑ i ∈ range 317, P i * Real.exp (-(1 / 100 * ∑ j ∈ range 32, τ i j ^ 2)) * (z i ^ 3 * (16 + 5 * z i) / 96) :=
      sum_nonneg fun i hi => mul_nonneg (mul_nonneg (P_nonneg i) (Real.exp_pos _).le) (tail_nonneg (hz i (mem_range.mp hi)).1)
    generalize ∑ i ∈ range 317, P i * Real.exp (-(1 / 100 * ∑ j ∈ range 32, τ i j ^ 2)) * (z i ^ 3 * (16 + 5 * z i) / 96) = r at *
    have b : (1050481 / 10 ^ 6 + 218 / 100 / 50 + 576 / 5000 + 2 * (1 / 10 ^ 10) * 313 + r : ℝ) ≤ 1388 / 1000 := by
      have : (1050481 / 10 ^ 6 + 218 / 100 / 50 + 576 / 5000 + 2 * (1 / 10 ^ 10) * 313 + 178 / 1000 : ℝ) ≤ 1388 / 1000 := by norm_num
      linarith
    refine (mul_le_mul he b (by positivity) (by norm_num)).trans ?_
    norm_num

end
end Visqol.Svr
