import Verif.Num.Ieee
import Mathlib.Data.Int.Log
import Mathlib.Tactic.Positivity
import Mathlib.Tactic.Ring
import Mathlib.Tactic.FieldSimp

/-!
# Correctly rounded binary64 satisfies the laws of `Ieee`

The numbers are the values of binary64 (the two zeros are one number here, and `x / 0` is an infinity with the sign of `x`); every
operation gives the exact result rounded to nearest, ties to even; `sum` is the left fold; `RustFft` is the sum over twiddles.
This file only serves to show that the laws assumed in `Verif/Num/Ieee.lean` are those of an existing arithmetic.
-/

namespace Visqol
open Classical

namespace B64

/-- Nearest integer, ties to even. -/
noncomputable def rhe (x : ℝ) : ℤ :=
  if x - ⌊x⌋ < 1 / 2 then ⌊x⌋ else if 1 / 2 < x - ⌊x⌋ then ⌊x⌋ + 1 else if ⌊x⌋ % 2 = 0 then ⌊x⌋ else ⌊x⌋ + 1

theorem rhe_near (x : ℝ) : |(rhe x : ℝ) - x| ≤ 1 / 2 := by
  have h1 := Int.floor_le x
  have h2 := Int.lt_floor_add_one x
  unfold rhe
  rw [abs_le]
  split
  · constructor <;> linarith
  · split
    · push_cast; constructor <;> linarith
    · split
      · constructor <;> linarith
      · push_cast; constructor <;> linarith

theorem le_rhe {n : ℤ} {x : ℝ} (h : (n : ℝ) ≤ x) : n ≤ rhe x := by
  have h1 : n ≤ ⌊x⌋ := Int.le_floor.mpr h
  unfold rhe
  split
  · exact h1
  · split
    · omega
    · split <;> omega

theorem rhe_le {n : ℤ} {x : ℝ} (h : x ≤ (n : ℝ)) : rhe x ≤ n := by
  rcases h.lt_or_eq with h | h
  · have h1 : ⌊x⌋ < n := Int.floor_lt.mpr h
    unfold rhe
    split
    · omega
    · split
      · omega
      · split <;> omega
  · subst h
    unfold rhe
    simp

theorem rhe_int (n : ℤ) : rhe (n : ℝ) = n := le_antisymm (rhe_le le_rfl) (le_rhe le_rfl)

/-- The exponent of the last binary digit of `x`. -/
noncomputable def ulp (x : ℝ) : ℤ := max (Int.log 2 |x| - 52) (-1074)

/-- The multiple of the last digit nearest to `x`. -/
noncomputable def near (x : ℝ) : ℝ := (rhe (x / 2 ^ ulp x) : ℝ) * 2 ^ ulp x

/-- Rounding to nearest, with overflow to infinity. -/
noncomputable def rnd (x : ℝ) : Val := if |near x| < 2 ^ 1024 then .fin (near x) else .inf (decide (x < 0))

/-- The finite values of binary64. -/
def Rep (x : ℝ) : Prop := |x| < 2 ^ 1024 ∧ ∃ k e : ℤ, |k| ≤ 2 ^ 53 ∧ -1074 ≤ e ∧ x = k * 2 ^ e

theorem two_pos (e : ℤ) : (0 : ℝ) < 2 ^ e := by positivity

theorem zpow_le {a b : ℤ} (h : a ≤ b) : (2 : ℝ) ^ a ≤ 2 ^ b := zpow_le_zpow_right₀ (by norm_num) h

theorem p52 (f : ℤ) : (2 : ℝ) ^ (f + 52) = ((2 ^ 52 : ℤ) : ℝ) * 2 ^ f := by
  rw [zpow_add₀ (by norm_num), mul_comm]
  congr 1
  norm_cast

theorem log_le {x : ℝ} (h : x ≠ 0) : (2 : ℝ) ^ Int.log 2 |x| ≤ |x| := by
  have := Int.zpow_log_le_self (b := 2) (r := |x|) (by norm_num) (abs_pos.mpr h)
  exact_mod_cast this

theorem lt_log (x : ℝ) : |x| < (2 : ℝ) ^ (Int.log 2 |x| + 1) := by
  have := Int.lt_zpow_succ_log_self (b := 2) (by norm_num) |x|
  exact_mod_cast this

theorem near_zero : near 0 = 0 := by
  unfold near
  rw [zero_div, show (0 : ℝ) = ((0 : ℤ) : ℝ) by norm_num, rhe_int]; simp

/-- Numbers on the grid of `x` are fixed. -/
theorem near_grid {x : ℝ} {n : ℤ} (h : x = n * 2 ^ ulp x) : near x = x := by
  unfold near
  have : x / 2 ^ ulp x = n := by
    rw [div_eq_iff (two_pos _).ne']; exact h
  rw [this, rhe_int]; exact h.symm

theorem near_abs (x : ℝ) : |near x - x| ≤ 2 ^ ulp x / 2 := by
  have h := rhe_near (x / 2 ^ ulp x)
  have hp := two_pos (ulp x)
  have e : near x - x = ((rhe (x / 2 ^ ulp x) : ℝ) - x / 2 ^ ulp x) * 2 ^ ulp x := by
    unfold near
    rw [sub_mul, div_mul_cancel₀ _ hp.ne']
  rw [e, abs_mul, abs_of_pos hp]
  calc _ ≤ 1 / 2 * (2 : ℝ) ^ ulp x := by gcongr
    _ = _ := by ring

theorem grid_le_near {x : ℝ} {n : ℤ} (h : n * 2 ^ ulp x ≤ x) : n * 2 ^ ulp x ≤ near x := by
  have hp := two_pos (ulp x)
  unfold near
  have : (n : ℝ) ≤ x / 2 ^ ulp x := by rwa [le_div_iff₀ hp]
  have := le_rhe this
  have : (n : ℝ) ≤ (rhe (x / 2 ^ ulp x) : ℝ) := by exact_mod_cast this
  gcongr

theorem near_le_grid {x : ℝ} {n : ℤ} (h : x ≤ n * 2 ^ ulp x) : near x ≤ n * 2 ^ ulp x := by
  have hp := two_pos (ulp x)
  unfold near
  have : x / 2 ^ ulp x ≤ (n : ℝ) := by rwa [div_le_iff₀ hp]
  have := rhe_le this
  have : (rhe (x / 2 ^ ulp x) : ℝ) ≤ (n : ℝ) := by exact_mod_cast this
  gcongr

theorem grid_of {k e f : ℤ} (h : f ≤ e) : ((k * 2 ^ (e - f).toNat : ℤ) : ℝ) * 2 ^ f = k * 2 ^ e := by
  push_cast
  rw [mul_assoc]
  congr 1
  rw [← zpow_natCast, ← zpow_add₀ (by norm_num)]
  congr 1
  omega

/-- Numbers with at most 53 digits are fixed. -/
theorem near_rep {k e : ℤ} (hk : |k| ≤ 2 ^ 53) (he : -1074 ≤ e) : near (k * 2 ^ e) = k * 2 ^ e := by
  by_cases h0 : (k : ℝ) * 2 ^ e = 0
  · rw [h0, near_zero]
  set x : ℝ := k * 2 ^ e with hx
  have hu : ulp x = max (Int.log 2 |x| - 52) (-1074) := rfl
  by_cases hf : ulp x ≤ e
  · exact near_grid (n := k * 2 ^ (e - ulp x).toNat) (by rw [grid_of hf])
  · have h1 := log_le h0
    have hk' : |(k : ℝ)| ≤ 2 ^ 53 := by exact_mod_cast hk
    have h2 : |x| = |(k : ℝ)| * 2 ^ e := by rw [hx, abs_mul, abs_of_pos (two_pos e)]
    have h3 : |x| ≤ 2 ^ (53 + e) := by
      rw [h2, zpow_add₀ (by norm_num)]
      have := two_pos e
      gcongr
      exact_mod_cast hk'
    have h4 : Int.log 2 |x| ≤ 53 + e := by
      by_contra hc
      have := zpow_lt_zpow_right₀ (a := (2 : ℝ)) (by norm_num) (show 53 + e < Int.log 2 |x| by omega)
      linarith
    have h5 : ulp x = e + 1 := by omega
    have h6 : Int.log 2 |x| = 53 + e := by omega
    rw [h6] at h1
    have h7 : |x| = 2 ^ (53 + e) := le_antisymm h3 h1
    have h8 : |x| = ((2 ^ 52 : ℤ) : ℝ) * 2 ^ ulp x := by
      rw [h7, ← p52]
      congr 1
      omega
    rcases abs_choice x with h9 | h9
    · exact near_grid (n := 2 ^ 52) (by rw [← h8, h9])
    · refine near_grid (n := -2 ^ 52) ?_
      push_cast at h8 ⊢
      rw [neg_mul, ← h8, h9, neg_neg]

/-- Rounding does not cross representable numbers. -/
theorem rep_le_near {x y : ℝ} (hx : Rep x) (h : x ≤ y) : x ≤ near y := by
  obtain ⟨_, k, e, hk, he, hxe⟩ := hx
  have hk' : |(k : ℝ)| ≤ 2 ^ 53 := by exact_mod_cast hk
  by_cases hy0 : y = 0
  · rw [hy0, near_zero, ← hy0]; exact h
  by_cases hf : ulp y ≤ e
  · have := grid_of (k := k) hf
    rw [hxe, ← this]
    apply grid_le_near
    rw [this, ← hxe]; exact h
  · have hu : ulp y = max (Int.log 2 |y| - 52) (-1074) := rfl
    have hl : Int.log 2 |y| = ulp y + 52 := by omega
    have h1 := log_le hy0
    have hax : |x| ≤ 2 ^ (53 + e) := by
      rw [hxe, abs_mul, abs_of_pos (two_pos e), zpow_add₀ (by norm_num)]
      have := two_pos e
      gcongr
      exact_mod_cast hk'
    have h2 : (2 : ℝ) ^ (53 + e) ≤ 2 ^ (ulp y + 52) := zpow_le (by omega)
    have h3 : (2 : ℝ) ^ (ulp y + 52) = ((2 ^ 52 : ℤ) : ℝ) * 2 ^ ulp y := p52 _
    rw [hl] at h1
    rcases lt_or_gt_of_ne hy0 with hn | hp
    · rw [abs_of_neg hn] at h1
      have h4 : -x ≤ 2 ^ (ulp y + 52) := (neg_le_abs x).trans (hax.trans h2)
      have hxy : x = y := by linarith
      have hxe2 : y = ((-2 ^ 52 : ℤ) : ℝ) * 2 ^ ulp y := by
        push_cast at h3 ⊢
        linarith
      rw [near_grid hxe2, hxy]
    · rw [abs_of_pos hp] at h1
      have h4 : x ≤ 2 ^ (ulp y + 52) := (le_abs_self x).trans (hax.trans h2)
      rw [h3] at h1 h4
      exact h4.trans (grid_le_near h1)

theorem near_le_rep {x y : ℝ} (hx : Rep x) (h : y ≤ x) : near y ≤ x := by
  obtain ⟨_, k, e, hk, he, hxe⟩ := hx
  have hk' : |(k : ℝ)| ≤ 2 ^ 53 := by exact_mod_cast hk
  by_cases hy0 : y = 0
  · rw [hy0, near_zero, ← hy0]; exact h
  by_cases hf : ulp y ≤ e
  · have := grid_of (k := k) hf
    rw [hxe, ← this]
    apply near_le_grid
    rw [this, ← hxe]; exact h
  · have hu : ulp y = max (Int.log 2 |y| - 52) (-1074) := rfl
    have hl : Int.log 2 |y| = ulp y + 52 := by omega
    have h1 := log_le hy0
    have hax : |x| ≤ 2 ^ (53 + e) := by
      rw [hxe, abs_mul, abs_of_pos (two_pos e), zpow_add₀ (by norm_num)]
      have := two_pos e
      gcongr
      exact_mod_cast hk'
    have h2 : (2 : ℝ) ^ (53 + e) ≤ 2 ^ (ulp y + 52) := zpow_le (by omega)
    have h3 : (2 : ℝ) ^ (ulp y + 52) = ((2 ^ 52 : ℤ) : ℝ) * 2 ^ ulp y := p52 _
    rw [hl] at h1
    rcases lt_or_gt_of_ne hy0 with hn | hp
    · rw [abs_of_neg hn] at h1
      have h4 : -x ≤ 2 ^ (ulp y + 52) := (neg_le_abs x).trans (hax.trans h2)
      rw [h3] at h1 h4
      have h5 : y ≤ ((-2 ^ 52 : ℤ) : ℝ) * 2 ^ ulp y := by
        push_cast at h1 ⊢
        linarith
      have h6 := near_le_grid h5
      push_cast at h4 h6
      linarith
    · rw [abs_of_pos hp] at h1
      have h4 : x ≤ 2 ^ (ulp y + 52) := (le_abs_self x).trans (hax.trans h2)
      have hxy : x = y := by linarith
      have hxe2 : y = ((2 ^ 52 : ℤ) : ℝ) * 2 ^ ulp y := by
        push_cast at h3 ⊢
        linarith
      rw [near_grid hxe2, hxy]

theorem abs_near_lt (x : ℝ) : |near x| ≤ 2 ^ (ulp x + 53) := by
  have h1 := lt_log x
  have hu : ulp x = max (Int.log 2 |x| - 52) (-1074) := rfl
  have h2 : |x| ≤ 2 ^ (ulp x + 53) := h1.le.trans (zpow_le (by omega))
  have h3 : (2 : ℝ) ^ (ulp x + 53) = ((2 ^ 53 : ℤ) : ℝ) * 2 ^ ulp x := by
    rw [zpow_add₀ (by norm_num), mul_comm]
    congr 1
    norm_cast
  rw [abs_le] at h2 ⊢
  rw [h3] at h2 ⊢
  refine ⟨?_, near_le_grid h2.2⟩
  have := grid_le_near (x := x) (n := -2 ^ 53) (by push_cast at h2 ⊢; linarith [h2.1])
  push_cast at this ⊢
  linarith

theorem near_Rep {x : ℝ} (h : |near x| < 2 ^ 1024) : Rep (near x) := by
  refine ⟨h, rhe (x / 2 ^ ulp x), ulp x, ?_, ?_, rfl⟩
  · have h1 := abs_near_lt x
    have hp := two_pos (ulp x)
    unfold near at h1
    rw [abs_mul, abs_of_pos hp, zpow_add₀ (by norm_num), mul_comm ((2 : ℝ) ^ ulp x)] at h1
    have h2 := le_of_mul_le_mul_right h1 hp
    have : |rhe (x / 2 ^ ulp x)| ≤ 2 ^ 53 := by exact_mod_cast h2
    exact this
  · unfold ulp; omega

theorem near_acc {x : ℝ} : |near x - x| ≤ |x| / 2 ^ 52 + 1 / 2 ^ 1000 := by
  by_cases h0 : x = 0
  · rw [h0, near_zero]; simp
  have h1 := near_abs x
  have h2 := log_le h0
  have hax : 0 ≤ |x| / 2 ^ 52 := by positivity
  have hu : ulp x = max (Int.log 2 |x| - 52) (-1074) := rfl
  rcases max_choice (Int.log 2 |x| - 52) (-1074) with h | h
  · rw [h] at hu
    have : (2 : ℝ) ^ ulp x ≤ |x| / 2 ^ 52 := by
      rw [hu, zpow_sub₀ (by norm_num)]
      have : (2 : ℝ) ^ (52 : ℤ) = 2 ^ 52 := by norm_cast
      rw [this]
      gcongr
    have h3 : (0 : ℝ) ≤ 1 / 2 ^ 1000 := by positivity
    have := two_pos (ulp x)
    linarith
  · rw [h] at hu
    have h3 : (2 : ℝ) ^ ulp x ≤ 1 / 2 ^ 1000 := by
      rw [hu, show (1 : ℝ) / 2 ^ 1000 = 2 ^ (-1000 : ℤ) by rw [zpow_neg, one_div]; norm_cast]
      exact zpow_le (by norm_num)
    have := two_pos (ulp x)
    linarith

theorem near_lt {x : ℝ} (h : |x| ≤ 2 ^ 1000) : |near x| < 2 ^ 1024 := by
  have h1 := near_acc (x := x)
  have h2 : |near x| ≤ |near x - x| + |x| := by
    have := abs_add_le (near x - x) x
    rwa [sub_add_cancel] at this
  have h3 : |x| / 2 ^ 52 ≤ |x| := div_le_self (abs_nonneg x) (one_le_pow₀ (by norm_num))
  have h4 : (1 : ℝ) / 2 ^ 1000 ≤ 2 ^ 1000 := by
    rw [div_le_iff₀ (by positivity)]
    exact one_le_mul_of_one_le_of_one_le (one_le_pow₀ (by norm_num)) (one_le_pow₀ (by norm_num))
  have h5 : (2 : ℝ) ^ 1024 = 2 ^ 1000 * 2 ^ 24 := by rw [← pow_add]
  have h6 : (0 : ℝ) < 2 ^ 1000 := by positivity
  rw [h5]
  generalize (2 : ℝ) ^ 1000 = P at *
  norm_num at *
  clear h5
  linarith

theorem rnd_acc {x : ℝ} (h : |x| ≤ 2 ^ 1000) : ∃ y, rnd x = .fin y ∧ |y - x| ≤ |x| / 2 ^ 52 + 1 / 2 ^ 1000 :=
  ⟨near x, by rw [rnd, if_pos (near_lt h)], near_acc⟩

theorem rnd_of_rep {x : ℝ} (h : Rep x) : rnd x = .fin x := by
  obtain ⟨h1, k, e, hk, he, rfl⟩ := h
  have := near_rep hk he
  rw [rnd, this, if_pos h1]

theorem rep_int {k : ℤ} (e : ℤ) (h1 : |k| ≤ 2 ^ 53) (h2 : -1000 ≤ e) (h3 : e ≤ 900) : Rep (k * 2 ^ e) := by
  refine ⟨?_, k, e, h1, by omega, rfl⟩
  have h1' : |(k : ℝ)| ≤ 2 ^ 53 := by exact_mod_cast h1
  rw [abs_mul, abs_of_pos (two_pos e)]
  calc |(k : ℝ)| * 2 ^ e ≤ 2 ^ 53 * 2 ^ (900 : ℤ) := by
        have := zpow_le h3
        have := two_pos e
        gcongr
    _ = 2 ^ 953 := by
        rw [zpow_ofNat, ← pow_add]
    _ < 2 ^ 1024 := pow_lt_pow_right₀ (by norm_num) (by norm_num)

theorem Rep.neg {x : ℝ} (h : Rep x) : Rep (-x) := by
  obtain ⟨h1, k, e, hk, he, rfl⟩ := h
  refine ⟨by rwa [abs_neg], -k, e, by rwa [abs_neg], he, by push_cast; ring⟩

theorem Rep.abs {x : ℝ} (h : Rep x) : Rep |x| := by
  rcases abs_choice x with e | e <;> rw [e]
  · exact h
  · exact h.neg

theorem rep_zero : Rep 0 := ⟨by simp, 0, 0, by simp, by norm_num, by simp⟩

theorem Rep.range {x : ℝ} (h : Rep x) : x = 0 ∨ (1 / 2 ^ 1074 ≤ |x| ∧ |x| ≤ 2 ^ 1024) := by
  obtain ⟨h1, k, e, hk, he, rfl⟩ := h
  by_cases h0 : k = 0
  · left; rw [h0]; simp
  · right
    refine ⟨?_, h1.le⟩
    have : (1 : ℝ) ≤ |(k : ℝ)| := by exact_mod_cast Int.one_le_abs h0
    rw [abs_mul, abs_of_pos (two_pos e), show (1 : ℝ) / 2 ^ 1074 = 2 ^ (-1074 : ℤ) by rw [zpow_neg, one_div]; norm_cast]
    calc (2 : ℝ) ^ (-1074 : ℤ) ≤ 2 ^ e := zpow_le he
      _ ≤ |(k : ℝ)| * 2 ^ e := le_mul_of_one_le_left (two_pos e).le this

theorem rhe_mono {x y : ℝ} (h : x ≤ y) : rhe x ≤ rhe y := by
  have hf : ⌊x⌋ ≤ ⌊y⌋ := Int.floor_mono h
  have h1 := Int.floor_le x
  have h2 := Int.lt_floor_add_one x
  have h3 := Int.floor_le y
  rcases hf.lt_or_eq with hlt | heq
  · have a1 : rhe x ≤ ⌊x⌋ + 1 := rhe_le (by push_cast; exact h2.le)
    have a2 : ⌊y⌋ ≤ rhe y := le_rhe h3
    omega
  · unfold rhe
    rw [heq] at h1 h2 ⊢
    by_cases c1 : x - ⌊y⌋ < 1 / 2
    · rw [if_pos c1]
      split
      · exact le_rfl
      · split
        · omega
        · split <;> omega
    · rw [if_neg c1, if_neg (by linarith : ¬ y - ⌊y⌋ < 1 / 2)]
      by_cases c2 : 1 / 2 < x - ⌊y⌋
      · rw [if_pos c2, if_pos (by linarith)]
      · rw [if_neg c2]
        by_cases c3 : 1 / 2 < y - ⌊y⌋
        · rw [if_pos c3]; split <;> omega
        · rw [if_neg c3]

/-- Powers of two at or above the last digit lie on the grid. -/
theorem grid_pow (x : ℝ) {e : ℤ} (h : ulp x ≤ e) : ∃ n : ℤ, (2 : ℝ) ^ e = n * 2 ^ ulp x := by
  refine ⟨2 ^ (e - ulp x).toNat, ?_⟩
  have := grid_of (k := 1) h
  simp only [one_mul, Int.cast_one] at this
  exact this.symm

theorem ulp_le_log (x : ℝ) (h : -1074 < ulp x) : ulp x = Int.log 2 |x| - 52 := by
  unfold ulp at h ⊢; omega

theorem near_neg_nonpos {x : ℝ} (h : x ≤ 0) : near x ≤ 0 := by
  have := near_le_grid (x := x) (n := 0) (by simpa using h)
  simpa using this

theorem near_nonneg {x : ℝ} (h : 0 ≤ x) : 0 ≤ near x := by
  have := grid_le_near (x := x) (n := 0) (by simpa using h)
  simpa using this

theorem near_mono {x y : ℝ} (h : x ≤ y) : near x ≤ near y := by
  by_cases hu : ulp x = ulp y
  · unfold near
    rw [hu]
    have hp := two_pos (ulp y)
    have : (rhe (x / 2 ^ ulp y) : ℝ) ≤ rhe (y / 2 ^ ulp y) := by
      exact_mod_cast rhe_mono (div_le_div_of_nonneg_right h hp.le)
    gcongr
  · rcases le_or_gt x 0 with hx | hx'
    · rcases le_or_gt 0 y with hy | hy'
      · exact (near_neg_nonpos hx).trans (near_nonneg hy)
      · -- both not positive: `|y| ≤ |x|`
        have hy : y ≤ 0 := hy'.le
        have hy1 : y ≠ 0 := hy'.ne
        have hy0 : x ≠ 0 := (h.trans_lt hy').ne
        have hlt : ulp y < ulp x := by
          have habs : |y| ≤ |x| := by rw [abs_of_nonpos hx, abs_of_nonpos hy]; linarith
          have := Int.log_mono_right (b := 2) (abs_pos.mpr hy1) habs
          unfold ulp at hu ⊢; omega
        have hul : -1074 ≤ ulp y := le_max_right _ _
        have hux : ulp x = Int.log 2 |x| - 52 := ulp_le_log x (by omega)
        have hly : Int.log 2 |y| + 1 ≤ Int.log 2 |x| := by unfold ulp at hlt hux; omega
        obtain ⟨n, hn⟩ := grid_pow x (e := Int.log 2 |x|) (by omega)
        obtain ⟨n', hn'⟩ := grid_pow y (e := Int.log 2 |x|) (by omega)
        have b1 : near x ≤ -2 ^ Int.log 2 |x| := by
          have := near_le_grid (x := x) (n := -n) (by
            push_cast
            rw [neg_mul, ← hn]
            have := log_le hy0
            rw [abs_of_nonpos hx] at this ⊢
            linarith)
          push_cast at this
          rwa [neg_mul, ← hn] at this
        have b2 : -2 ^ Int.log 2 |x| ≤ near y := by
          have := grid_le_near (x := y) (n := -n') (by
            push_cast
            rw [neg_mul, ← hn']
            have a1 := lt_log y
            have a2 := zpow_le hly
            rw [abs_of_nonpos hy] at a1 a2
            linarith)
          push_cast at this
          rwa [neg_mul, ← hn'] at this
        exact b1.trans b2
    · have hx : 0 ≤ x := hx'.le
      have hy1 : x ≠ 0 := hx'.ne'
      have hy : 0 ≤ y := hx.trans h
      have hy0 : y ≠ 0 := (hx'.trans_le h).ne'
      have hlt : ulp x < ulp y := by
        have habs : |x| ≤ |y| := by rwa [abs_of_nonneg hx, abs_of_nonneg hy]
        have := Int.log_mono_right (b := 2) (abs_pos.mpr hy1) habs
        unfold ulp at hu ⊢; omega
      have hul : -1074 ≤ ulp x := le_max_right _ _
      have huy : ulp y = Int.log 2 |y| - 52 := ulp_le_log y (by omega)
      have hlx : Int.log 2 |x| + 1 ≤ Int.log 2 |y| := by unfold ulp at hlt huy; omega
      obtain ⟨n, hn⟩ := grid_pow x (e := Int.log 2 |y|) (by omega)
      obtain ⟨n', hn'⟩ := grid_pow y (e := Int.log 2 |y|) (by omega)
      have b1 : near x ≤ 2 ^ Int.log 2 |y| := by
        rw [hn]
        refine near_le_grid ?_
        rw [← hn]
        have a1 := lt_log x
        have a2 := zpow_le hlx
        rw [abs_of_nonneg hx] at a1 a2
        linarith
      have b2 : 2 ^ Int.log 2 |y| ≤ near y := by
        rw [hn']
        refine grid_le_near ?_
        rw [← hn']
        have := log_le hy0
        rwa [abs_of_nonneg hy] at this ⊢
      exact b1.trans b2

theorem rnd_mono {x y u v : ℝ} (h : x ≤ y) (hx : rnd x = .fin u) (hy : rnd y = .fin v) : u ≤ v := by
  unfold rnd at hx hy
  split at hx
  · split at hy
    · cases hx; cases hy; exact near_mono h
    · cases hy
  · cases hx

theorem rnd_ge {x y : ℝ} (hx : Rep x) (h : x ≤ y) : rnd y = .inf false ∨ ∃ z, rnd y = .fin z ∧ x ≤ z := by
  have h1 := rep_le_near hx h
  unfold rnd
  split
  · exact Or.inr ⟨_, rfl, h1⟩
  · rename_i hc
    left
    have hy : ¬ y < 0 := by
      intro hn
      apply hc
      have h2 : near y ≤ 0 := by
        have := near_le_grid (x := y) (n := 0) (by simp; exact hn.le)
        simpa using this
      rw [abs_of_nonpos h2]
      have := hx.1
      rw [abs_lt] at this
      linarith
    rw [decide_eq_false hy]

theorem rnd_le {x y : ℝ} (hx : Rep x) (h : y ≤ x) : rnd y = .inf true ∨ ∃ z, rnd y = .fin z ∧ z ≤ x := by
  have h1 := near_le_rep hx h
  unfold rnd
  split
  · exact Or.inr ⟨_, rfl, h1⟩
  · rename_i hc
    left
    have hy : y < 0 := by
      by_contra hn
      push Not at hn
      apply hc
      have h2 : 0 ≤ near y := by
        have := grid_le_near (x := y) (n := 0) (by simpa using hn)
        simpa using this
      rw [abs_of_nonneg h2]
      have := hx.1
      rw [abs_lt] at this
      linarith
    rw [decide_eq_true hy]

/-- The values of binary64. -/
def RepVal : Val → Prop
  | .fin x => Rep x
  | _ => True

theorem rnd_repVal (x : ℝ) : RepVal (rnd x) := by
  unfold rnd
  split
  · exact near_Rep ‹_›
  · trivial

end B64

/-- Binary64 with one zero. -/
structure B64 where
  val : Val
  rep : B64.RepVal val

namespace B64

noncomputable def ofReal (x : ℝ) : B64 := ⟨rnd x, rnd_repVal x⟩

def ofRep (x : ℝ) (h : Rep x) : B64 := ⟨.fin x, h⟩

/-- A function of the reals, correctly rounded; anything else is NaN. -/
noncomputable def lift (f : ℝ → ℝ) (a : B64) : B64 :=
  match a.val with
  | .fin x => ofReal (f x)
  | _ => ⟨.nan, trivial⟩

noncomputable def add (a b : B64) : B64 := ⟨a.val.add rnd b.val, by
  cases a.val <;> cases b.val <;> dsimp only [Val.add] <;> first | trivial | exact rnd_repVal _ | (split <;> trivial)⟩

noncomputable def mul (a b : B64) : B64 := ⟨a.val.mul rnd b.val, by
  cases a.val <;> cases b.val <;> dsimp only [Val.mul] <;> first | trivial | exact rnd_repVal _ | (split <;> trivial)⟩

def neg (a : B64) : B64 := ⟨a.val.neg, by
  have := a.rep
  revert this
  cases a.val <;> simp only [Val.neg, RepVal]
  · exact fun _ => trivial
  · exact fun _ => trivial
  · exact Rep.neg⟩

noncomputable def div (a b : B64) : B64 :=
  match a.val, b.val with
  | .nan, _ => ⟨.nan, trivial⟩
  | _, .nan => ⟨.nan, trivial⟩
  | .inf _, .inf _ => ⟨.nan, trivial⟩
  | .inf s, .fin y => ⟨.inf (s != decide (y < 0)), trivial⟩
  | .fin _, .inf _ => ofRep 0 rep_zero
  | .fin x, .fin y => if y = 0 then (if x = 0 then ⟨.nan, trivial⟩ else ⟨.inf (decide (x < 0)), trivial⟩) else ofReal (x / y)

noncomputable def abs (a : B64) : B64 := ⟨a.val.abs, by
  have := a.rep
  revert this
  cases a.val <;> simp only [Val.abs, RepVal]
  · exact fun _ => trivial
  · exact fun _ => trivial
  · exact Rep.abs⟩

noncomputable def sqrt (a : B64) : B64 := ⟨a.val.sqrt rnd, by
  cases a.val <;> dsimp only [Val.sqrt] <;> first | trivial | (split <;> first | trivial | exact rnd_repVal _)⟩

noncomputable def log10 (a : B64) : B64 :=
  match a.val with
  | .nan => ⟨.nan, trivial⟩
  | .inf s => if s then ⟨.nan, trivial⟩ else ⟨.inf false, trivial⟩
  | .fin x => if x = 0 then ⟨.inf true, trivial⟩ else if x < 0 then ⟨.nan, trivial⟩ else ofReal (Real.logb 10 x)

/-- Only the cases the model needs: a positive finite base. -/
noncomputable def powf (a b : B64) : B64 :=
  match a.val, b.val with
  | .fin x, .fin y => ofReal (x ^ y)
  | .fin x, .inf s => if 1 < x then (if s then ofRep 0 rep_zero else ⟨.inf false, trivial⟩) else ⟨.nan, trivial⟩
  | _, _ => ⟨.nan, trivial⟩

noncomputable def lift2 (f : ℝ → ℝ → ℝ) (a b : B64) : B64 :=
  match a.val, b.val with
  | .fin x, .fin y => ofReal (f x y)
  | _, _ => ⟨.nan, trivial⟩

theorem rep_one : Rep 1 := by simpa using rep_int (k := 1) 0 (by norm_num) (by norm_num) (by norm_num)

theorem rep_min : Rep (-((2 : ℝ) ^ 1024 - 2 ^ 971)) := by
  have h0 : (2 : ℝ) ^ 1024 = 2 ^ 971 * 2 ^ 53 := by rw [← pow_add]
  have hp : (0 : ℝ) < 2 ^ 971 := by positivity
  refine ⟨?_, -(2 ^ 53 - 1), 971, by norm_num, by norm_num, ?_⟩
  · rw [abs_neg, h0]
    generalize (2 : ℝ) ^ 971 = P at *
    norm_num at *
    clear h0
    rw [abs_lt]
    constructor <;> linarith
  · rw [h0, zpow_ofNat]
    push_cast
    ring

theorem rep_eps : Rep (1 / 2 ^ 52) := by
  have := rep_int (k := 1) (-52) (by norm_num) (by norm_num) (by norm_num)
  rw [zpow_neg, show (2 : ℝ) ^ (52 : ℤ) = 2 ^ 52 by norm_cast] at this
  simpa using this

noncomputable instance : Flt B64 where
  add := add
  sub a b := add a (neg b)
  mul := mul
  div := div
  neg := neg
  ofScientific m s e := ofReal (if s then (m : ℝ) / 10 ^ e else (m : ℝ) * 10 ^ e)
  ofNat n := ofReal n
  ofInt n := ofReal n
  lt a b := a.val.lt b.val
  le a b := a.val.lt b.val || a.val.eq b.val
  eq a b := a.val.eq b.val
  abs := abs
  sqrt := sqrt
  exp := lift Real.exp
  ln := lift Real.log
  log2 := lift (Real.logb 2)
  log10 := log10
  sin := lift Real.sin
  cos := lift Real.cos
  sinh := lift Real.sinh
  cosh := lift Real.cosh
  floor := lift fun x => ⌊x⌋
  ceil := lift fun x => ⌈x⌉
  round := lift realRound
  powf := powf
  atan2 := lift2 fun y x => Complex.arg ⟨x, y⟩
  hypot := lift2 fun x y => Real.sqrt (x ^ 2 + y ^ 2)
  mulAdd a b c := match a.val, b.val, c.val with
    | .fin x, .fin y, .fin z => ofReal (x * y + z)
    | _, _, _ => ⟨.nan, trivial⟩
  toUsize a := a.val.toUsize
  toI32 a := match a.val with
    | .nan => 0
    | .inf s => if s then -2147483648 else 2147483647
    | .fin x => realToInt (-2147483648) 2147483647 x
  toI16 a := match a.val with
    | .nan => 0
    | .inf s => if s then -32768 else 32767
    | .fin x => realToInt (-32768) 32767 x
  toF32 := id
  minVal := ofRep _ rep_min
  epsilon := ofRep _ rep_eps
  pi := ofReal Real.pi
  sum l := l.foldl add (ofRep 0 rep_zero)

theorem foldl_nan {l : List B64} {s : B64} (h : s.val = .nan ∨ ∃ a ∈ l, a.val = .nan) : (l.foldl add s).val = .nan := by
  induction l generalizing s with
  | nil => rcases h with h | ⟨a, ha, _⟩
           · exact h
           · simp at ha
  | cons b l ih =>
    rw [List.foldl_cons]
    apply ih
    rcases h with h | ⟨a, ha, h⟩
    · left; simp [add, h, Val.add]
    · rcases List.mem_cons.mp ha with rfl | ha
      · left
        simp only [add, h]
        cases s.val <;> rfl
      · exact Or.inr ⟨a, ha, h⟩

theorem foldl_nat {l : List B64} {n : List Nat} {s : B64} {t : Nat} (hs : s.val = .fin t)
    (h : l.map B64.val = n.map (fun k : ℕ => Val.fin (k : ℝ))) (hn : t + n.sum ≤ 2 ^ 53) :
    (l.foldl add s).val = .fin ((t + n.sum : ℕ) : ℝ) := by
  induction l generalizing s n t with
  | nil =>
    cases n with
    | nil => simpa using hs
    | cons _ _ => simp at h
  | cons b l ih =>
    cases n with
    | nil => simp at h
    | cons k n =>
      simp only [List.map_cons, List.cons.injEq] at h
      simp only [List.sum_cons] at hn ⊢
      rw [List.foldl_cons, ih (n := n) (t := t + k) ?_ h.2 (by omega), ← Nat.add_assoc]
      simp only [add, hs, h.1, Val.add]
      have := rnd_of_rep (rep_int (k := ((t + k : ℕ) : ℤ)) 0 (by rw [abs_of_nonneg (by positivity)]; exact_mod_cast (by omega : t + k ≤ 2 ^ 53)) (by norm_num) (by norm_num))
      simp only [zpow_zero, mul_one] at this
      push_cast at this ⊢
      exact this

theorem foldl_small {l : List B64} {s : B64} {t : Nat} (hs : ∃ x, s.val = .fin x ∧ |x| ≤ 2 * t)
    (h : ∀ a ∈ l, ∃ x, a.val = .fin x ∧ |x| ≤ 2) (hn : t + l.length ≤ 2 ^ 50) : ∃ y, (l.foldl add s).val = .fin y := by
  induction l generalizing s t with
  | nil => exact ⟨_, hs.choose_spec.1⟩
  | cons b l ih =>
    rw [List.length_cons] at hn
    refine ih (s := add s b) (t := t + 1) ?_ (fun a ha => h a (by simp [ha])) (by omega)
    obtain ⟨x, hx, hx2⟩ := hs
    obtain ⟨y, hy, hy2⟩ := h b (by simp)
    have hk : |((2 * (t + 1) : ℕ) : ℤ)| ≤ 2 ^ 53 := by
      rw [abs_of_nonneg (by positivity)]
      exact_mod_cast (by omega : 2 * (t + 1) ≤ 2 ^ 53)
    have r1 := rep_int (k := ((2 * (t + 1) : ℕ) : ℤ)) 0 hk (by norm_num) (by norm_num)
    simp only [zpow_zero, mul_one] at r1
    have hxy : |x + y| ≤ 2 * t + 2 := (abs_add_le x y).trans (by linarith)
    have hb := abs_le.mp hxy
    push_cast at r1
    have hv : (add s b).val = rnd (x + y) := by simp only [add, hx, hy, Val.add]
    rw [hv]
    rcases rnd_ge r1.neg (y := x + y) (by linarith) with e1 | ⟨z, e1, e2⟩
    · rcases rnd_le r1 (y := x + y) (by linarith) with e3 | ⟨w, e3, _⟩
      · rw [e1] at e3; cases e3
      · rw [e1] at e3; cases e3
    · rcases rnd_le r1 (y := x + y) (by linarith) with e3 | ⟨w, e3, e4⟩
      · rw [e1] at e3; cases e3
      · rw [e1] at e3; cases e3
        refine ⟨z, e1, abs_le.mpr ?_⟩
        push_cast
        constructor <;> linarith

theorem rnd_bound {x : ℝ} {B : ℝ} (hx : |x| ≤ B) (hB : B ≤ 2 ^ 1000) :
    ∃ y, rnd x = .fin y ∧ |y - x| ≤ |x| / 2 ^ 52 + 1 / 2 ^ 1000 := rnd_acc (hx.trans hB)

theorem log_bound {x : ℝ} (h0 : 0 < x) (h1 : 1 / 2 ^ 1074 ≤ x) (h2 : x ≤ 2 ^ 1024) : |Real.logb 10 x| ≤ 1074 := by
  have hb : (1 : ℝ) < 10 := by norm_num
  have key : ∀ n : ℕ, (2 : ℝ) ^ n ≤ 10 ^ n := fun n => pow_le_pow_left₀ (by norm_num) (by norm_num) n
  rw [abs_le]
  constructor
  · rw [Real.le_logb_iff_rpow_le hb h0, Real.rpow_neg (by norm_num)]
    refine le_trans ?_ h1
    rw [one_div, show (1074 : ℝ) = ((1074 : ℕ) : ℝ) by norm_num, Real.rpow_natCast]
    exact inv_anti₀ (by positivity) (key 1074)
  · rw [Real.logb_le_iff_le_rpow hb h0]
    refine h2.trans ((key 1024).trans ?_)
    rw [show (1074 : ℝ) = ((1074 : ℕ) : ℝ) by norm_num, Real.rpow_natCast]
    exact pow_le_pow_right₀ (by norm_num) (by norm_num)

theorem factor_two {t : ℝ} (h1 : 1 / 2 ^ 900 ≤ t) (h2 : t ≤ 2 ^ 900) : ∃ z, rnd t = .fin z ∧ t / 2 ≤ z ∧ z ≤ 2 * t := by
  have h0 : 0 < t := lt_of_lt_of_le (by positivity) h1
  obtain ⟨z, hz, h⟩ := rnd_acc (x := t) (by
    rw [abs_of_pos h0]
    exact h2.trans (pow_le_pow_right₀ (by norm_num) (by norm_num)))
  refine ⟨z, hz, ?_⟩
  rw [abs_of_pos h0, abs_le] at h
  have h3 : t / 2 ^ 52 ≤ t / 4 := by
    apply div_le_div_of_nonneg_left h0.le (by norm_num)
    norm_num
  have h4 : (1 : ℝ) / 2 ^ 1000 ≤ t / 4 := by
    refine le_trans ?_ (div_le_div_of_nonneg_right h1 (by norm_num))
    rw [div_div, show (4 : ℝ) = 2 ^ 2 by norm_num, ← pow_add]
    apply div_le_div_of_nonneg_left (by norm_num) (by positivity)
    exact pow_le_pow_right₀ (by norm_num) (by norm_num)
  constructor <;> linarith [h.1, h.2]

noncomputable instance : Ieee B64 where
  val := B64.val
  rnd := rnd
  rnd_dyadic k e h1 h2 h3 := rnd_of_rep (rep_int e h1 h2 h3)
  rnd_acc _ h := rnd_acc h
  rnd_ge a x y h1 h2 := by
    have := a.rep
    rw [h1] at this
    exact rnd_ge this h2
  rnd_mono _ _ _ _ h h1 h2 := rnd_mono h h1 h2
  rnd_le a x y h1 h2 := by
    have := a.rep
    rw [h1] at this
    exact rnd_le this h2
  range a x h := by
    have := a.rep
    rw [h] at this
    exact Rep.range this
  val_ofNat _ := rfl
  val_ofInt _ := rfl
  val_sci _ _ _ := rfl
  val_add _ _ := rfl
  val_sub _ _ := rfl
  val_mul _ _ := rfl
  val_neg _ := rfl
  div_nan a b h := by
    change (div a b).val = _
    unfold div
    rcases h with h | h <;> rw [h]
    cases a.val <;> rfl
  div_fin a b x y ha hb h0 := by
    change (div a b).val = _
    unfold div
    rw [ha, hb]
    dsimp only
    rw [if_neg h0]; rfl
  zero_div_zero a b ha hb := by
    change (div a b).val = _
    unfold div
    rw [ha, hb]
    simp
  div_zero a b x ha h0 hb := by
    refine ⟨decide (x < 0), ?_⟩
    change (div a b).val = _
    unfold div
    rw [ha, hb]
    simp [h0]
  inf_div a b s y ha hb hy := by
    change (div a b).val = _
    unfold div
    rw [ha, hb]
    simp [not_lt.mpr hy.le]
  div_inf a b x s ha hb := by
    change (div a b).val = _
    unfold div
    rw [ha, hb]
    rfl
  lt_val _ _ := rfl
  eq_val _ _ := rfl
  val_abs _ := rfl
  val_sqrt _ := rfl
  val_round a x h := by
    change (lift realRound a).val = _
    unfold lift
    rw [h]; rfl
  toUsize_val _ := rfl
  log10_nan a h := by
    change (log10 a).val = _
    unfold log10
    rw [h]
  log10_zero a h := by
    change (log10 a).val = _
    unfold log10
    rw [h]
    simp
  log10_inf a h := by
    change (log10 a).val = _
    unfold log10
    rw [h]
    simp
  log10_neg a h := by
    change (log10 a).val = _
    unfold log10
    rcases h with h | ⟨x, hx, h⟩
    · rw [h]; simp
    · rw [h]; simp [hx.ne, hx]
  log10_pos a x h h0 := by
    have hr := a.rep
    rw [h] at hr
    have hr := (Rep.range hr).resolve_left h0.ne'
    rw [abs_of_pos h0] at hr
    have hb := log_bound h0 hr.1 hr.2
    obtain ⟨y, hy, he⟩ := rnd_acc (x := Real.logb 10 x) (hb.trans (by
      calc (1074 : ℝ) ≤ 2 ^ 11 := by norm_num
        _ ≤ 2 ^ 1000 := pow_le_pow_right₀ (by norm_num) (by norm_num)))
    refine ⟨y, ?_, he.trans ?_⟩
    · change (log10 a).val = _
      unfold log10
      rw [h]
      simp only [h0.ne', not_lt.mpr h0.le, if_false]
      exact hy
    · have h1 : |Real.logb 10 x| / 2 ^ 52 ≤ 1 / 2 := by
        rw [div_le_iff₀ (by positivity)]
        refine hb.trans ?_
        norm_num
      have h2 : (1 : ℝ) / 2 ^ 1000 ≤ 1 / 2 := by
        apply div_le_div_of_nonneg_left (by norm_num) (by norm_num)
        calc (2 : ℝ) = 2 ^ 1 := by norm_num
          _ ≤ 2 ^ 1000 := pow_le_pow_right₀ (by norm_num) (by norm_num)
      linarith
  powf_nan a b x ha h1 hb := by
    change (powf a b).val = _
    unfold powf
    rw [ha, hb]
  powf_inf a b x s ha h1 hb := by
    change (powf a b).val = _
    unfold powf
    rw [ha, hb]
    cases s <;> simp [h1, ofRep]
  powf_pos a b x y ha hb h0 h1 h2 := by
    obtain ⟨z, hz, h⟩ := factor_two h1 h2
    refine ⟨z, ?_, h⟩
    change (powf a b).val = _
    unfold powf
    rw [ha, hb]
    exact hz
  hypot_nan a b y ha hb := by
    change (lift2 _ a b).val = _
    unfold lift2
    rw [ha]
  val_minVal := rfl
  val_epsilon := rfl
  sum_nan l h := foldl_nan (Or.inr h)
  sum_nat l n h hn := by
    have := foldl_nat (s := ofRep 0 rep_zero) (t := 0) (by simp [ofRep]) h (by omega)
    rw [Nat.zero_add] at this
    exact this
  sum_small l h hn := foldl_small (s := ofRep 0 rep_zero) (t := 0) ⟨0, rfl, by simp⟩ h (by omega)

/-- The value as a real number (0 for NaN and the infinities). -/
noncomputable def real (a : B64) : ℝ :=
  match a.val with
  | .fin x => x
  | _ => 0

theorem real_fin {a : B64} {x : ℝ} (h : a.val = .fin x) : a.real = x := by simp [real, h]

/-- Real part of the transform with kernel `cos (2πkn/N) + sign * i sin (2πkn/N)`. -/
noncomputable def fftRe (sign : ℝ) (l : List (Cpx B64)) (k : Nat) : ℝ :=
  ((List.range l.length).map fun n => (l.getD n ⟨ofReal 0, ofReal 0⟩).re.real * Real.cos (2 * Real.pi * k * n / l.length)
    - (l.getD n ⟨ofReal 0, ofReal 0⟩).im.real * (sign * Real.sin (2 * Real.pi * k * n / l.length))).sum

/-- Imaginary part. -/
noncomputable def fftIm (sign : ℝ) (l : List (Cpx B64)) (k : Nat) : ℝ :=
  ((List.range l.length).map fun n => (l.getD n ⟨ofReal 0, ofReal 0⟩).re.real * (sign * Real.sin (2 * Real.pi * k * n / l.length))
    + (l.getD n ⟨ofReal 0, ofReal 0⟩).im.real * Real.cos (2 * Real.pi * k * n / l.length)).sum

/-- Both parts are finite. -/
def CFin (c : Cpx B64) : Prop := (∃ x, c.re.val = .fin x) ∧ ∃ y, c.im.val = .fin y

/-- The correctly rounded transform; NaN throughout if an entry is not finite. -/
noncomputable def fft (sign : ℝ) (l : List (Cpx B64)) : List (Cpx B64) :=
  if ∀ c ∈ l, CFin c then (List.range l.length).map fun k => ⟨ofReal (fftRe sign l k), ofReal (fftIm sign l k)⟩
  else l.map fun _ => ⟨⟨.nan, trivial⟩, ⟨.nan, trivial⟩⟩

theorem length_fft (sign : ℝ) (l : List (Cpx B64)) : (fft sign l).length = l.length := by
  unfold fft
  split <;> simp

noncomputable instance : RustFft B64 where
  forward := fft (-1)
  inverse := fft 1
  length_forward l := length_fft _ l
  length_inverse l := length_fft _ l

theorem fft_nan {sign : ℝ} {a : Cpx B64} {l : List (Cpx B64)} (h : a.re.val = .nan) : ∀ c ∈ fft sign (a :: l), c.re.val = .nan := by
  intro c hc
  have hn : ¬ ∀ c ∈ a :: l, CFin c := by
    intro hh
    obtain ⟨⟨x, hx⟩, _⟩ := hh a List.mem_cons_self
    rw [h] at hx
    cases hx
  rw [fft, if_neg hn] at hc
  obtain ⟨_, _, rfl⟩ := List.mem_map.mp hc
  rfl

instance : NanFft B64 where
  forward_nan _ _ h := fft_nan h
  inverse_nan _ _ h := fft_nan h

end B64
end Visqol
