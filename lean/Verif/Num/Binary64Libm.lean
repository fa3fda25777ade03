import Verif.Num.Binary64
import Verif.Num.Libm
import Mathlib.Analysis.Real.Pi.Bounds
import Mathlib.Analysis.Complex.ExponentialBounds

/-! # Correctly rounded binary64 has the laws of `Libm` and `BoundedFft` -/

namespace Visqol
open Ieee
namespace B64

theorem pow_le {n : ℕ} (h : n ≤ 1000) : (2 : ℝ) ^ n ≤ 2 ^ 1000 := pow_le_pow_right₀ (by norm_num) h

theorem tiny_le {n : ℕ} (h : n ≤ 1000) : (1 : ℝ) / 2 ^ 1000 ≤ 1 / 2 ^ n :=
  div_le_div_of_nonneg_left (by norm_num) (by positivity) (pow_le h)

theorem add_fin {a b : B64} {x y : ℝ} (ha : a.val = .fin x) (hb : b.val = .fin y) : (add a b).val = rnd (x + y) := by
  simp only [add, ha, hb, Val.add]

theorem mul_fin {a b : B64} {x y : ℝ} (ha : a.val = .fin x) (hb : b.val = .fin y) : (mul a b).val = rnd (x * y) := by
  simp only [mul, ha, hb, Val.mul]

/-- Growth of a left fold of additions. -/
theorem foldl_bound {l : List B64} {s : B64} {t : ℕ} {B : ℝ} (hB1 : 1 ≤ B) (hB2 : B ≤ 2 ^ 900)
    (hs : ∃ x, s.val = .fin x ∧ |x| ≤ t * B + t ^ 2 * B / 2 ^ 50) (h : ∀ a ∈ l, ∃ x, a.val = .fin x ∧ |x| ≤ B)
    (hn : t + l.length ≤ 2 ^ 50) :
    ∃ y, (l.foldl add s).val = .fin y ∧
      |y| ≤ ((t + l.length : ℕ) : ℝ) * B + ((t + l.length : ℕ) : ℝ) ^ 2 * B / 2 ^ 50 := by
  induction l generalizing s t with
  | nil => simpa using hs
  | cons b l ih =>
    rw [List.length_cons] at hn
    obtain ⟨x, hx, hx2⟩ := hs
    obtain ⟨y, hy, hy2⟩ := h b (by simp)
    have ht : (t : ℝ) + 1 ≤ 2 ^ 50 := by exact_mod_cast (by omega : t + 1 ≤ 2 ^ 50)
    have ht0 : (0 : ℝ) ≤ t := Nat.cast_nonneg t
    have hsq : (t : ℝ) ^ 2 * B / 2 ^ 50 ≤ t * B := by
      rw [div_le_iff₀ (by positivity)]
      have : (t : ℝ) * t ≤ t * 2 ^ 50 := mul_le_mul_of_nonneg_left (by linarith) ht0
      have := mul_le_mul_of_nonneg_right this (by linarith : 0 ≤ B)
      linarith
    have hxy : |x + y| ≤ 2 * (t + 1) * B := (abs_add_le x y).trans (by nlinarith)
    obtain ⟨z, hz, he⟩ := rnd_acc (x := x + y) (by
      refine hxy.trans ?_
      calc 2 * ((t : ℝ) + 1) * B ≤ 2 * 2 ^ 50 * 2 ^ 900 := by gcongr
        _ = 2 ^ 951 := by rw [mul_assoc, ← pow_add, ← pow_succ']
        _ ≤ 2 ^ 1000 := pow_le (by norm_num))
    have := ih (s := add s b) (t := t + 1) ⟨z, by rw [add_fin hx hy]; exact hz, ?_⟩ (fun a ha => h a (by simp [ha])) (by omega)
    · rw [List.foldl_cons]
      rw [List.length_cons, show t + (l.length + 1) = t + 1 + l.length by omega]
      exact this
    · have h1 : |z| ≤ |z - (x + y)| + |x + y| := by have := abs_add_le (z - (x + y)) (x + y); simpa using this
      have h2 := abs_add_le x y
      have h3 : (1 : ℝ) / 2 ^ 1000 ≤ 1 / 2 ^ 52 := tiny_le (by norm_num)
      have h4 : |x + y| / 2 ^ 52 ≤ 2 * (t + 1) * B / 2 ^ 52 := div_le_div_of_nonneg_right hxy (by positivity)
      push_cast
      have h5 : 2 * ((t : ℝ) + 1) * B / 2 ^ 52 + 1 / 2 ^ 52 ≤ (2 * t + 1) * B / 2 ^ 50 := by
        rw [← add_div, div_le_div_iff₀ (by positivity) (by positivity)]
        norm_num
        nlinarith
      have h6 : ((t : ℝ) + 1) ^ 2 * B / 2 ^ 50 = (t : ℝ) ^ 2 * B / 2 ^ 50 + (2 * t + 1) * B / 2 ^ 50 := by ring
      linarith

theorem foldl_sum {l : List B64} {B : ℝ} (hB1 : 1 ≤ B) (hB2 : B ≤ 2 ^ 900) (h : ∀ a ∈ l, ∃ x, a.val = .fin x ∧ |x| ≤ B)
    (hn : l.length ≤ 2 ^ 50) {s : B64} (hs : s.val = .fin 0) :
    ∃ y, (l.foldl add s).val = .fin y ∧ |y| ≤ l.length * B + (l.length : ℝ) ^ 2 * B / 2 ^ 50 := by
  have := foldl_bound (t := 0) hB1 hB2 ⟨0, hs, by simp⟩ h (by omega)
  simpa using this

theorem foldl_acc {l : List B64} {xs : List ℝ} {B : ℝ} (hB1 : 1 ≤ B) (hB2 : B ≤ 2 ^ 900) {s : B64} {t : ℕ} {S : ℝ} (hS : |S| ≤ t * B)
    (hs : ∃ x, s.val = .fin x ∧ |x - S| ≤ t ^ 2 * B / 2 ^ 50) (he : l.map val = xs.map .fin) (h : ∀ x ∈ xs, |x| ≤ B)
    (hn : t + l.length ≤ 2 ^ 50) :
    ∃ y, (l.foldl add s).val = .fin y ∧ |y - (S + xs.sum)| ≤ ((t + l.length : ℕ) : ℝ) ^ 2 * B / 2 ^ 50 := by
  induction l generalizing s t S xs with
  | nil =>
    cases xs with
    | nil => simpa using hs
    | cons a l => cases he
  | cons b l ih =>
    cases xs with
    | nil => cases he
    | cons y ys =>
    rw [List.map_cons, List.map_cons] at he
    injection he with hy he
    rw [List.length_cons] at hn
    obtain ⟨x, hx, hx2⟩ := hs
    have hy2 := h y (by simp)
    have ht : (t : ℝ) + 1 ≤ 2 ^ 50 := by exact_mod_cast (by omega : t + 1 ≤ 2 ^ 50)
    have ht0 : (0 : ℝ) ≤ t := Nat.cast_nonneg t
    have hsq : (t : ℝ) ^ 2 * B / 2 ^ 50 ≤ t * B := by
      rw [div_le_iff₀ (by positivity)]
      have : (t : ℝ) * t ≤ t * 2 ^ 50 := mul_le_mul_of_nonneg_left (by linarith) ht0
      have := mul_le_mul_of_nonneg_right this (by linarith : 0 ≤ B)
      linarith
    have hxS : |x| ≤ 2 * t * B := by
      have := abs_add_le (x - S) S
      rw [sub_add_cancel] at this
      linarith
    have hxy : |x + y| ≤ 2 * (t + 1) * B := (abs_add_le x y).trans (by nlinarith)
    obtain ⟨z, hz, he'⟩ := rnd_acc (x := x + y) (by
      refine hxy.trans ?_
      calc 2 * ((t : ℝ) + 1) * B ≤ 2 * 2 ^ 50 * 2 ^ 900 := by gcongr
        _ = 2 ^ 951 := by rw [mul_assoc, ← pow_add, ← pow_succ']
        _ ≤ 2 ^ 1000 := pow_le (by norm_num))
    have := ih (s := add s b) (t := t + 1) (S := S + y) (xs := ys) ?_ ⟨z, by rw [add_fin hx hy]; exact hz, ?_⟩ he
      (fun a ha => h a (by simp [ha])) (by omega)
    · rw [List.foldl_cons, List.sum_cons, ← add_assoc]
      rw [List.length_cons, show t + (l.length + 1) = t + 1 + l.length by omega]
      exact this
    · push_cast
      exact (abs_add_le _ _).trans (by linarith)
    · have h1 : |z - (S + y)| ≤ |z - (x + y)| + |x - S| := by
        have := abs_add_le (z - (x + y)) (x - S)
        rwa [show z - (x + y) + (x - S) = z - (S + y) by ring] at this
      have h3 : (1 : ℝ) / 2 ^ 1000 ≤ 1 / 2 ^ 52 := tiny_le (by norm_num)
      have h4 : |x + y| / 2 ^ 52 ≤ 2 * (t + 1) * B / 2 ^ 52 := div_le_div_of_nonneg_right hxy (by positivity)
      push_cast
      have h5 : 2 * ((t : ℝ) + 1) * B / 2 ^ 52 + 1 / 2 ^ 52 ≤ (2 * t + 1) * B / 2 ^ 50 := by
        rw [← add_div, div_le_div_iff₀ (by positivity) (by positivity)]
        norm_num
        nlinarith
      have h6 : ((t : ℝ) + 1) ^ 2 * B / 2 ^ 50 = (t : ℝ) ^ 2 * B / 2 ^ 50 + (2 * t + 1) * B / 2 ^ 50 := by ring
      linarith

/-- Rounding of a number up to `2⁹⁰⁰`. -/
theorem rnd_near {x : ℝ} (h : |x| ≤ 2 ^ 1000) : ∃ y, rnd x = .fin y ∧ |y - x| ≤ |x| / 2 ^ 52 + 1 / 2 ^ 1000 := rnd_acc h

theorem lift_val {f : ℝ → ℝ} {a : B64} {x : ℝ} (h : a.val = .fin x) : (lift f a).val = rnd (f x) := by
  unfold lift
  rw [h]
  rfl

theorem lift2_val {f : ℝ → ℝ → ℝ} {a b : B64} {x y : ℝ} (ha : a.val = .fin x) (hb : b.val = .fin y) :
    (lift2 f a b).val = rnd (f x y) := by
  unfold lift2
  rw [ha, hb]
  rfl

theorem rnd_within {x e : ℝ} (hx : |x| ≤ 2 ^ 1000) (he : |x| / 2 ^ 52 + 1 / 2 ^ 1000 ≤ e) : ∃ y, rnd x = .fin y ∧ |y - x| ≤ e := by
  obtain ⟨y, h1, h2⟩ := rnd_acc hx
  exact ⟨y, h1, h2.trans he⟩

/-- Values up to 2¹⁰ are rounded with error at most `2⁻⁴⁰`. -/
theorem near_small {x : ℝ} (hx : |x| ≤ 2 ^ 10) : ∃ y, rnd x = .fin y ∧ |y - x| ≤ 1 / 2 ^ 40 := by
  refine rnd_within (hx.trans (pow_le (by norm_num))) ?_
  have h1 : |x| / 2 ^ 52 ≤ 2 ^ 10 / 2 ^ 52 := div_le_div_of_nonneg_right hx (by positivity)
  have h2 := tiny_le (n := 52) (by norm_num)
  norm_num at h1 h2 ⊢
  linarith

theorem exp_size {x : ℝ} (h : |x| ≤ 500) : 1 / 2 ^ 750 ≤ Real.exp x ∧ Real.exp x ≤ 2 ^ 750 := by
  have h1 := abs_le.mp h
  have e1 : Real.exp 500 ≤ 2 ^ 750 := by
    have h27 : Real.exp 1 ≤ 2.7182818286 := Real.exp_one_lt_d9.le
    have : Real.exp 500 = Real.exp 1 ^ 500 := by rw [← Real.exp_nat_mul]; norm_num
    rw [this]
    have h3 : Real.exp 1 ^ 2 ≤ 2 ^ 3 := by
      have h0 := Real.exp_pos 1
      nlinarith
    calc Real.exp 1 ^ 500 = (Real.exp 1 ^ 2) ^ 250 := by rw [← pow_mul]
      _ ≤ (2 ^ 3) ^ 250 := pow_le_pow_left₀ (by positivity) h3 250
      _ = 2 ^ 750 := by rw [← pow_mul]
  constructor
  · rw [div_le_iff₀ (by positivity)]
    have h2 : Real.exp (-500) ≤ Real.exp x := Real.exp_le_exp.mpr h1.1
    have h3 : Real.exp (-500) * Real.exp 500 = 1 := by rw [← Real.exp_add]; norm_num
    calc 1 = Real.exp (-500) * Real.exp 500 := h3.symm
      _ ≤ Real.exp x * 2 ^ 750 := mul_le_mul h2 e1 (Real.exp_pos _).le (Real.exp_pos _).le
  · exact (Real.exp_le_exp.mpr h1.2).trans e1

theorem log2_size {x : ℝ} (h1 : 1 ≤ x) (h2 : x ≤ 2 ^ 100) : |Real.logb 2 x| ≤ 100 := by
  have h0 : 0 < x := by linarith
  rw [abs_of_nonneg (Real.logb_nonneg (by norm_num) h1), Real.logb_le_iff_le_rpow (by norm_num) h0]
  exact_mod_cast h2

theorem ln_size {x : ℝ} (h1 : 1 ≤ x) (h2 : x ≤ 2 ^ 100) : |Real.log x| ≤ 100 := by
  have h0 : 0 < x := by linarith
  have hb := log2_size h1 h2
  rw [Real.logb, abs_div, abs_of_pos (Real.log_pos (by norm_num : (1 : ℝ) < 2)), div_le_iff₀ (Real.log_pos (by norm_num))] at hb
  have := Real.log_two_lt_d9
  linarith

theorem log10_size {x : ℝ} (h1 : 1 / 2 ^ 100 ≤ x) (h2 : x ≤ 2 ^ 100) : |Real.logb 10 x| ≤ 100 := by
  have h0 : 0 < x := lt_of_lt_of_le (by positivity) h1
  rw [abs_le]
  constructor
  · rw [Real.le_logb_iff_rpow_le (by norm_num) h0, Real.rpow_neg (by norm_num), ← one_div]
    refine le_trans ?_ h1
    rw [show (100 : ℝ) = (100 : ℕ) by norm_num, Real.rpow_natCast]
    apply div_le_div_of_nonneg_left (by norm_num) (by positivity)
    exact pow_le_pow_left₀ (by norm_num) (by norm_num) 100
  · rw [Real.logb_le_iff_le_rpow (by norm_num) h0, show (100 : ℝ) = (100 : ℕ) by norm_num, Real.rpow_natCast]
    exact h2.trans (pow_le_pow_left₀ (by norm_num) (by norm_num) 100)

theorem near_tight {x : ℝ} : |near x - x| ≤ |x| / 2 ^ 52 + 1 / 2 ^ 1074 := by
  by_cases h0 : x = 0
  · rw [h0, near_zero]; simp
  have h1 := near_abs x
  have h2 := log_le h0
  have hax : 0 ≤ |x| / 2 ^ 52 := by positivity
  have hu : ulp x = max (Int.log 2 |x| - 52) (-1074) := rfl
  rcases max_choice (Int.log 2 |x| - 52) (-1074) with h | h
  · rw [h] at hu
    have : (2 : ℝ) ^ ulp x ≤ |x| / 2 ^ 52 := by
      rw [hu, zpow_sub₀ (by norm_num)]
      have : (2 : ℝ) ^ (52 : ℤ) = 2 ^ 52 := by norm_cast
      rw [this]
      gcongr
    have h3 : (0 : ℝ) ≤ 1 / 2 ^ 1074 := by positivity
    have := two_pos (ulp x)
    linarith
  · rw [h] at hu
    have h3 : (2 : ℝ) ^ ulp x = 1 / 2 ^ 1074 := by
      rw [hu, show (1 : ℝ) / 2 ^ 1074 = 2 ^ (-1074 : ℤ) by rw [zpow_neg, one_div]; norm_cast]
    have := two_pos (ulp x)
    linarith

/-- Every number is a multiple of the smallest one. -/
theorem Rep.multiple {x : ℝ} (h : Rep x) : ∃ n : ℤ, x = n * 2 ^ (-1074 : ℤ) := by
  obtain ⟨_, k, e, _, he, rfl⟩ := h
  exact ⟨_, (grid_of he).symm⟩

theorem rep_small_sub {x y : ℝ} (hx : Rep x) (hy : Rep y) (h : |x - y| ≤ 1 / 2 ^ 1021) : Rep (x - y) := by
  obtain ⟨m, rfl⟩ := hx.multiple
  obtain ⟨n, rfl⟩ := hy.multiple
  have e : (m : ℝ) * 2 ^ (-1074 : ℤ) - n * 2 ^ (-1074 : ℤ) = ((m - n : ℤ) : ℝ) * 2 ^ (-1074 : ℤ) := by push_cast; ring
  rw [e] at h ⊢
  refine ⟨h.trans_lt ?_, m - n, -1074, ?_, le_rfl, rfl⟩
  · calc (1 : ℝ) / 2 ^ 1021 ≤ 1 := div_le_one_of_le₀ (one_le_pow₀ (by norm_num)) (by positivity)
      _ < 2 ^ 1024 := one_lt_pow₀ (by norm_num) (by norm_num)
  · have h2 : (1 : ℝ) / 2 ^ 1021 = 2 ^ 53 * 2 ^ (-1074 : ℤ) := by
      rw [show (1 : ℝ) / 2 ^ 1021 = 2 ^ (-1021 : ℤ) by rw [zpow_neg, one_div]; norm_cast,
        show (-1021 : ℤ) = 53 + -1074 by norm_num, zpow_add₀ (by norm_num)]
      norm_cast
    rw [h2, abs_mul, abs_of_pos (two_pos _)] at h
    have := le_of_mul_le_mul_right h (two_pos _)
    exact_mod_cast this

theorem foldl_nonneg {l : List B64} {s : B64} (hs : s.val = .inf false ∨ ∃ x, s.val = .fin x ∧ 0 ≤ x)
    (h : ∀ a ∈ l, ∃ x, a.val = .fin x ∧ 0 ≤ x) : (l.foldl add s).val = .inf false ∨ ∃ x, (l.foldl add s).val = .fin x ∧ 0 ≤ x := by
  induction l generalizing s with
  | nil => exact hs
  | cons b l ih =>
    rw [List.foldl_cons]
    refine ih ?_ fun a ha => h a (by simp [ha])
    obtain ⟨y, hy, hy0⟩ := h b (by simp)
    rcases hs with hs | ⟨x, hx, hx0⟩
    · left; simp only [add, hs, hy, Val.add]
    · have hv : (add s b).val = rnd (x + y) := by simp only [add, hx, hy, Val.add]
      rw [hv]
      exact rnd_ge rep_zero (by linarith)

instance : Libm B64 where
  rnd_tight x h := ⟨near x, by show rnd x = _; rw [rnd, if_pos (near_lt h)], near_tight⟩
  sub_small a b x y ha hb h := by
    have h1 := a.rep
    have h2 := b.rep
    rw [show a.val = .fin x from ha] at h1
    rw [show b.val = .fin y from hb] at h2
    exact rnd_of_rep (rep_small_sub h1 h2 h)
  sum_acc l xs B he h1 h2 h hn := by
    have := foldl_acc (s := ofRep 0 rep_zero) (t := 0) (S := 0) h1 h2 (by simp) ⟨0, rfl, by simp⟩ he h (by omega)
    simp only [Nat.zero_add, zero_add] at this
    exact this
  sum_nonneg l y h hy := by
    rcases foldl_nonneg (s := ofRep 0 rep_zero) (Or.inr ⟨0, rfl, le_rfl⟩) h with e | ⟨z, e, hz⟩
    · exact absurd (hy.symm.trans e) (by simp)
    · have := hy.symm.trans e
      cases this
      exact hz
  exp_acc a x ha hx := by
    obtain ⟨h1, h2⟩ := exp_size hx
    have h0 := Real.exp_pos x
    change ∃ y, (lift Real.exp a).val = _ ∧ _
    rw [lift_val ha]
    refine rnd_within (by rw [abs_of_pos h0]; exact h2.trans (pow_le (by norm_num))) ?_
    rw [abs_of_pos h0]
    have h3 : (1 : ℝ) / 2 ^ 1000 ≤ Real.exp x / 2 ^ 50 := by
      rw [le_div_iff₀ (by positivity)]
      refine le_trans ?_ h1
      rw [div_mul_eq_mul_div, one_mul, div_le_div_iff₀ (by positivity) (by positivity), ← pow_add, one_mul]
      exact pow_le (by norm_num)
    have h4 : Real.exp x / 2 ^ 52 + Real.exp x / 2 ^ 50 ≤ Real.exp x / 2 ^ 40 := by
      norm_num
      linarith
    linarith
  exp_num a x ha := by
    change (lift Real.exp a).val ≠ _
    rw [lift_val ha]
    unfold rnd
    split <;> simp
  exp_large a x ha h := by
    change (lift Real.exp a).val = _ ∨ ∃ y, (lift Real.exp a).val = _ ∧ _
    rw [lift_val ha]
    refine Ieee.rnd_ge (F := B64) (Flt.ofNat 1000) 1000 (Real.exp x) ?_ ?_
    · rw [Ieee.val_ofNat]
      have := Ieee.rnd_dyadic (F := B64) 1000 0 (by norm_num) (by norm_num) (by norm_num)
      simpa using this
    · have h1 := Real.quadratic_le_exp_of_nonneg (show 0 ≤ x by linarith)
      nlinarith
  ln_acc a x ha h1 h2 := by
    change ∃ y, (lift Real.log a).val = _ ∧ _
    rw [lift_val ha]
    have := ln_size h1 h2
    obtain ⟨y, e, hy⟩ := near_small (x := Real.log x) (this.trans (by norm_num))
    exact ⟨y, e, hy⟩
  log2_acc a x ha h1 h2 := by
    change ∃ y, (lift (Real.logb 2) a).val = _ ∧ _
    rw [lift_val ha]
    have := log2_size h1 h2
    obtain ⟨y, e, hy⟩ := near_small (x := Real.logb 2 x) (this.trans (by norm_num))
    exact ⟨y, e, hy⟩
  log10_acc a x ha h1 h2 := by
    have h0 : 0 < x := lt_of_lt_of_le (by positivity) h1
    have hb := log10_size h1 h2
    obtain ⟨y, e, hy⟩ := near_small (x := Real.logb 10 x) (hb.trans (by norm_num))
    refine ⟨y, ?_, hy⟩
    change (log10 a).val = _
    have ha' : a.val = .fin x := ha
    unfold log10
    rw [ha']
    simp only [h0.ne', not_lt.mpr h0.le, if_false]
    exact e
  floor_val a x ha := lift_val ha
  ceil_val a x ha := lift_val ha
  toI32_val a x ha := by
    have ha' : a.val = .fin x := ha
    simp only [Flt.toI32, ha']
  toI16_val a x ha := by
    have ha' : a.val = .fin x := ha
    simp only [Flt.toI16, ha']
  hypot_acc a b x y ha hb hx hy := by
    change ∃ z, (lift2 _ a b).val = _ ∧ _
    rw [lift2_val ha hb]
    have h0 := Real.sqrt_nonneg (x ^ 2 + y ^ 2)
    have h1 : Real.sqrt (x ^ 2 + y ^ 2) ≤ 2 ^ 901 := by
      rw [Real.sqrt_le_left (by positivity)]
      have h2 : x ^ 2 ≤ (2 ^ 900) ^ 2 := by rw [← sq_abs x]; exact pow_le_pow_left₀ (abs_nonneg _) hx 2
      have h3 : y ^ 2 ≤ (2 ^ 900) ^ 2 := by rw [← sq_abs y]; exact pow_le_pow_left₀ (abs_nonneg _) hy 2
      rw [show (2 : ℝ) ^ 901 = 2 ^ 900 * 2 from pow_succ _ _]
      generalize (2 : ℝ) ^ 900 = P at *
      nlinarith [sq_nonneg P]
    refine rnd_within (by rw [abs_of_nonneg h0]; exact h1.trans (pow_le (by norm_num))) ?_
    rw [abs_of_nonneg h0]
    have h2 : Real.sqrt (x ^ 2 + y ^ 2) / 2 ^ 52 ≤ Real.sqrt (x ^ 2 + y ^ 2) / 2 ^ 40 :=
      div_le_div_of_nonneg_left h0 (by positivity) (by norm_num)
    have h3 := tiny_le (n := 900) (by norm_num)
    linarith
  cos_acc a x ha _ := by
    change ∃ y, (lift Real.cos a).val = _ ∧ _
    rw [lift_val ha]
    exact near_small ((Real.abs_cos_le_one x).trans (by norm_num))
  sin_acc a x ha _ := by
    change ∃ y, (lift Real.sin a).val = _ ∧ _
    rw [lift_val ha]
    exact near_small ((Real.abs_sin_le_one x).trans (by norm_num))
  sin_zero a ha := by
    change (lift Real.sin a).val = _
    rw [lift_val ha, Real.sin_zero]
    exact rnd_of_rep rep_zero
  cosh_zero a ha := by
    change (lift Real.cosh a).val = _
    rw [lift_val ha, Real.cosh_zero]
    exact rnd_of_rep rep_one
  sinh_zero a ha := by
    change (lift Real.sinh a).val = _
    rw [lift_val ha, Real.sinh_zero]
    exact rnd_of_rep rep_zero
  atan2_bound a b x y ha hb := by
    change ∃ z, (lift2 _ a b).val = _ ∧ _
    rw [lift2_val ha hb]
    have h1 : |Complex.arg ⟨y, x⟩| ≤ 3.15 := (Complex.abs_arg_le_pi _).trans Real.pi_lt_d2.le
    obtain ⟨z, e, hz⟩ := near_small (x := Complex.arg ⟨y, x⟩) (h1.trans (by norm_num))
    refine ⟨z, e, ?_⟩
    have : |z| ≤ |z - Complex.arg ⟨y, x⟩| + |Complex.arg ⟨y, x⟩| := by
      have := abs_add_le (z - Complex.arg ⟨y, x⟩) (Complex.arg ⟨y, x⟩); simpa using this
    norm_num at hz h1
    linarith
  atan2_zero a b y ha hb hy := by
    change (lift2 _ a b).val = _
    rw [lift2_val ha hb]
    have : Complex.arg ⟨y, 0⟩ = 0 := Complex.arg_ofReal_of_nonneg hy.le
    rw [this]
    exact rnd_of_rep rep_zero
  powf_acc a b x y ha hb h0 h1 h2 := by
    have hv : (powf a b).val = rnd (x ^ y) := by
      have ha' : a.val = .fin x := ha
      have hb' : b.val = .fin y := hb
      unfold powf
      rw [ha', hb']
      rfl
    change ∃ z, (powf a b).val = _ ∧ _
    rw [hv]
    have hp : 0 < x ^ y := Real.rpow_pos_of_pos h0 y
    refine rnd_within (by rw [abs_of_pos hp]; exact h2.trans (pow_le (by norm_num))) ?_
    rw [abs_of_pos hp]
    have h3 : (1 : ℝ) / 2 ^ 1000 ≤ x ^ y / 2 ^ 50 := by
      rw [le_div_iff₀ (by positivity)]
      refine le_trans ?_ h1
      rw [div_mul_eq_mul_div, one_mul, div_le_div_iff₀ (by positivity) (by positivity), ← pow_add, one_mul]
      exact pow_le (by norm_num)
    have h4 : x ^ y / 2 ^ 52 + x ^ y / 2 ^ 50 ≤ x ^ y / 2 ^ 40 := by
      norm_num
      linarith
    linarith
  pi_acc := by
    change ∃ y, rnd Real.pi = _ ∧ _
    exact near_small (by rw [abs_of_pos Real.pi_pos]; have := Real.pi_lt_d2; norm_num; linarith)
  val_mulAdd a b c x y z ha hb hc := by
    have ha' : a.val = .fin x := ha
    have hb' : b.val = .fin y := hb
    have hc' : c.val = .fin z := hc
    simp only [Flt.mulAdd, ha', hb', hc']
    rfl

theorem ofReal_unit {x : ℝ} (h : |x| ≤ 1) : ∃ y, (ofReal x).val = .fin y ∧ |y| ≤ 1 := by
  have hb := abs_le.mp h
  change ∃ y, rnd x = _ ∧ _
  rcases rnd_ge rep_one.neg (y := x) hb.1 with e1 | ⟨z, e1, e2⟩
  · rcases rnd_le rep_one (y := x) hb.2 with e3 | ⟨w, e3, _⟩
    · rw [e1] at e3; cases e3
    · rw [e1] at e3; cases e3
  · rcases rnd_le rep_one (y := x) hb.2 with e3 | ⟨w, e3, e4⟩
    · rw [e1] at e3; cases e3
    · rw [e1] at e3; cases e3
      exact ⟨z, e1, abs_le.mpr ⟨e2, e4⟩⟩

/-- A product with a factor up to 1. -/
theorem mul_unit {a c : B64} {x y B : ℝ} (hB1 : 1 ≤ B) (hB2 : B ≤ 2 ^ 800) (ha : a.val = .fin x) (hx : |x| ≤ B) (hc : c.val = .fin y)
    (hy : |y| ≤ 1) : ∃ z, (mul a c).val = .fin z ∧ |z| ≤ B * (1 + 1 / 2 ^ 50) := by
  have h1 : |x * y| ≤ B := by
    rw [abs_mul]
    calc |x| * |y| ≤ B * 1 := mul_le_mul hx hy (abs_nonneg _) (by linarith)
      _ = B := mul_one B
  obtain ⟨z, e, hz⟩ := rnd_acc (x := x * y) (h1.trans (hB2.trans (pow_le (by norm_num))))
  refine ⟨z, by rw [mul_fin ha hc]; exact e, ?_⟩
  have h2 : |z| ≤ |z - x * y| + |x * y| := by have := abs_add_le (z - x * y) (x * y); simpa using this
  have h3 := tiny_le (n := 52) (by norm_num)
  have h4 : |x * y| / 2 ^ 52 ≤ B / 2 ^ 52 := div_le_div_of_nonneg_right h1 (by positivity)
  generalize |x * y| = t at *
  generalize (1 : ℝ) / 2 ^ 1000 = u at *
  norm_num at h3 h4 hz ⊢
  linarith

/-- The sum of two such products. -/
theorem add_two {a b : B64} {x y B : ℝ} (hB1 : 1 ≤ B) (hB2 : B ≤ 2 ^ 800) (ha : a.val = .fin x) (hx : |x| ≤ B * (1 + 1 / 2 ^ 50))
    (hb : b.val = .fin y) (hy : |y| ≤ B * (1 + 1 / 2 ^ 50)) : ∃ z, (add a b).val = .fin z ∧ |z| ≤ 3 * B := by
  have h1 : |x + y| ≤ 2.5 * B := (abs_add_le x y).trans (by norm_num at hx hy ⊢; linarith)
  obtain ⟨z, e, hz⟩ := rnd_acc (x := x + y) (h1.trans (by
    calc 2.5 * B ≤ 2 ^ 2 * 2 ^ 800 := by gcongr; norm_num
      _ = 2 ^ 802 := by rw [← pow_add]
      _ ≤ 2 ^ 1000 := pow_le (by norm_num)))
  refine ⟨z, by rw [add_fin ha hb]; exact e, ?_⟩
  have h2 : |z| ≤ |z - (x + y)| + |x + y| := by have := abs_add_le (z - (x + y)) (x + y); simpa using this
  have h3 := tiny_le (n := 52) (by norm_num)
  have h4 : |x + y| / 2 ^ 52 ≤ 2.5 * B / 2 ^ 52 := div_le_div_of_nonneg_right h1 (by positivity)
  generalize |x + y| = t at *
  generalize (1 : ℝ) / 2 ^ 1000 = u at *
  norm_num at h3 h4 h1 hz
  linarith

theorem foldl_cadd_re (l : List (Cpx B64)) (s : Cpx B64) : (l.foldl Cpx.add s).re = (l.map Cpx.re).foldl add s.re := by
  induction l generalizing s with
  | nil => rfl
  | cons c l ih => rw [List.foldl_cons, ih, List.map_cons, List.foldl_cons]; rfl

theorem foldl_cadd_im (l : List (Cpx B64)) (s : Cpx B64) : (l.foldl Cpx.add s).im = (l.map Cpx.im).foldl add s.im := by
  induction l generalizing s with
  | nil => rfl
  | cons c l ih => rw [List.foldl_cons, ih, List.map_cons, List.foldl_cons]; rfl

theorem getD_bound {l : List (Cpx B64)} {B : ℝ} (hB : 0 ≤ B) (h : ∀ c ∈ l, CBound B c) (n : ℕ) :
    |(l.getD n ⟨ofReal 0, ofReal 0⟩).re.real| ≤ B ∧ |(l.getD n ⟨ofReal 0, ofReal 0⟩).im.real| ≤ B := by
  have hg : CBound B (l.getD n ⟨ofReal 0, ofReal 0⟩) := by
    rw [List.getD_eq_getElem?_getD]
    by_cases hl : n < l.length
    · rw [List.getElem?_eq_getElem hl]
      exact h _ (List.getElem_mem hl)
    · rw [List.getElem?_eq_none (not_lt.mp hl)]
      have h0 : rnd 0 = .fin 0 := rnd_of_rep rep_zero
      exact ⟨⟨0, h0, by rw [abs_zero]; exact hB⟩, ⟨0, h0, by rw [abs_zero]; exact hB⟩⟩
  obtain ⟨⟨x, hx, hx2⟩, ⟨y, hy, hy2⟩⟩ := hg
  rw [real_fin hx, real_fin hy]
  exact ⟨hx2, hy2⟩

theorem abs_list_sum_le {α : Type} (l : List α) (f : α → ℝ) (C : ℝ) (h : ∀ a ∈ l, |f a| ≤ C) : |(l.map f).sum| ≤ l.length * C := by
  induction l with
  | nil => simp
  | cons a l ih =>
    rw [List.map_cons, List.sum_cons, List.length_cons]
    push_cast
    have := ih fun b hb => h b (List.mem_cons_of_mem _ hb)
    have := h a List.mem_cons_self
    exact (abs_add_le _ _).trans (by linarith)

theorem fft_bound {sign : ℝ} (hs : |sign| ≤ 1) {l : List (Cpx B64)} {B : ℝ} (hB1 : 1 ≤ B) (hB2 : B ≤ 2 ^ 800) (hn : l.length ≤ 2 ^ 40)
    (h : ∀ c ∈ l, CBound B c) : ∀ c ∈ fft sign l, CBound (4 * l.length * B) c := by
  intro c hc
  have hB0 : 0 ≤ B := by linarith
  have hfin : ∀ c ∈ l, CFin c := fun c hc => by
    obtain ⟨⟨x, hx, _⟩, ⟨y, hy, _⟩⟩ := h c hc
    exact ⟨⟨x, hx⟩, ⟨y, hy⟩⟩
  rw [fft, if_pos hfin] at hc
  obtain ⟨k, hk, rfl⟩ := List.mem_map.mp hc
  have hl1 : 1 ≤ l.length := by
    have := List.mem_range.mp hk
    omega
  have hl : (1 : ℝ) ≤ l.length := by exact_mod_cast hl1
  have hl2 : (l.length : ℝ) ≤ 2 ^ 40 := by exact_mod_cast hn
  have hu : ∀ (r w : ℝ), |r| ≤ B → |w| ≤ 1 → |r * w| ≤ B := by
    intro r w h1 h2
    rw [abs_mul]
    calc |r| * |w| ≤ B * 1 := mul_le_mul h1 h2 (abs_nonneg _) hB0
      _ = B := mul_one B
  have hsin : ∀ t : ℝ, |sign * Real.sin t| ≤ 1 := by
    intro t
    rw [abs_mul]
    calc |sign| * |Real.sin t| ≤ 1 * 1 := mul_le_mul hs (Real.abs_sin_le_one _) (abs_nonneg _) (by norm_num)
      _ = 1 := one_mul 1
  have key : ∀ t : ℝ, |t| ≤ l.length * (2 * B) → ∃ x, (ofReal t).val = .fin x ∧ |x| ≤ 4 * l.length * B := by
    intro t ht
    have hT : |t| ≤ 2 ^ 1000 := by
      refine ht.trans ?_
      calc (l.length : ℝ) * (2 * B) ≤ 2 ^ 40 * (2 ^ 1 * 2 ^ 800) := by gcongr; norm_num
        _ = 2 ^ 841 := by rw [← pow_add, ← pow_add]
        _ ≤ 2 ^ 1000 := pow_le (by norm_num)
    obtain ⟨y, e, hy⟩ := rnd_acc hT
    refine ⟨y, e, ?_⟩
    have h2 : |y| ≤ |y - t| + |t| := by have := abs_add_le (y - t) t; simpa using this
    have h3 := tiny_le (n := 0) (by norm_num)
    have h4 : |t| / 2 ^ 52 ≤ |t| / 2 := div_le_div_of_nonneg_left (abs_nonneg _) (by norm_num) (by norm_num)
    have h5 : (1 : ℝ) ≤ l.length * B := by
      calc (1 : ℝ) = 1 * 1 := (one_mul 1).symm
        _ ≤ l.length * B := mul_le_mul hl hB1 (by norm_num) (by linarith)
    generalize (1 : ℝ) / 2 ^ 1000 = u at *
    rw [pow_zero, div_one] at h3
    clear hT hB2
    linarith
  constructor
  · refine key _ ?_
    unfold fftRe
    refine (abs_list_sum_le _ _ (2 * B) fun n _ => ?_).trans (by rw [List.length_range])
    have hg := getD_bound hB0 h n
    refine (abs_sub _ _).trans ?_
    have h1 := hu _ _ hg.1 (Real.abs_cos_le_one (2 * Real.pi * k * n / l.length))
    have h2 := hu _ _ hg.2 (hsin (2 * Real.pi * k * n / l.length))
    clear hB2
    linarith
  · refine key _ ?_
    unfold fftIm
    refine (abs_list_sum_le _ _ (2 * B) fun n _ => ?_).trans (by rw [List.length_range])
    have hg := getD_bound hB0 h n
    refine (abs_add_le _ _).trans ?_
    have h1 := hu _ _ hg.2 (Real.abs_cos_le_one (2 * Real.pi * k * n / l.length))
    have h2 := hu _ _ hg.1 (hsin (2 * Real.pi * k * n / l.length))
    clear hB2
    linarith

instance : BoundedFft B64 where
  forward_bound _ _ h1 h2 hn h := fft_bound (by norm_num) h1 h2 hn h
  inverse_bound _ _ h1 h2 hn h := fft_bound (by norm_num) h1 h2 hn h

end B64
end Visqol
