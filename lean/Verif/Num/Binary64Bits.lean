import Verif.Num.Bits
import Verif.Num.Binary64

/-! # Correctly rounded binary64 satisfies `BitLaws` -/

namespace Visqol
namespace B64

theorem rhe_neg (x : ℝ) : rhe (-x) = -rhe x := by
  by_cases h : (⌊x⌋ : ℝ) = x
  · rw [← h, ← Int.cast_neg, rhe_int, rhe_int]
  · have h1 := Int.floor_le x
    have h2 := Int.lt_floor_add_one x
    have h3 : (⌊x⌋ : ℝ) < x := lt_of_le_of_ne h1 h
    have hf : ⌊-x⌋ = -⌊x⌋ - 1 := by
      rw [Int.floor_eq_iff]
      push_cast
      constructor <;> linarith
    unfold rhe
    rw [hf]
    push_cast
    generalize ⌊x⌋ = n at *
    by_cases c1 : x - n < 1 / 2
    · rw [if_pos c1, if_neg (by linarith), if_pos (by linarith)]; ring
    · rw [if_neg c1]
      by_cases c2 : 1 / 2 < x - n
      · rw [if_pos c2, if_pos (by linarith)]; ring
      · rw [if_neg c2, if_neg (by linarith), if_neg (by linarith)]
        split <;> split <;> omega

theorem near_neg (x : ℝ) : near (-x) = -near x := by
  unfold near ulp
  rw [abs_neg, neg_div, rhe_neg]
  push_cast
  ring

theorem rnd_neg (x : ℝ) : rnd (-x) = (rnd x).neg := by
  unfold rnd
  rw [near_neg, abs_neg]
  split
  · rfl
  · rename_i h
    have hx : x ≠ 0 := by
      rintro rfl
      rw [near_zero, abs_zero] at h
      exact h (by positivity)
    simp only [Val.neg]
    rcases lt_or_gt_of_ne hx with hx | hx
    · simp [hx, not_lt.mpr hx.le]
    · simp [hx, not_lt.mpr hx.le]

theorem ext_val {a b : B64} (h : a.val = b.val) : a = b := by
  cases a; cases b; cases h; rfl

theorem sum_pair_val {a b : B64} {x y : ℝ} (ha : a.val = .fin x) (hb : b.val = .fin y) :
    (Flt.sum [a, b] : B64).val = rnd (x + y) := by
  have hr := a.rep
  rw [ha] at hr
  show (add (add (ofRep 0 rep_zero) a) b).val = _
  have h1 : (add (ofRep 0 rep_zero) a).val = .fin x := by
    show Val.add rnd (.fin 0) a.val = _
    rw [ha]
    show rnd (0 + x) = _
    rw [zero_add]
    exact rnd_of_rep hr
  show Val.add rnd (add (ofRep 0 rep_zero) a).val b.val = _
  rw [h1, hb]
  rfl

theorem ofInt_zero_val : (Flt.ofInt 0 : B64).val = .fin 0 := by
  show rnd ((0 : ℤ) : ℝ) = _
  rw [Int.cast_zero]
  exact rnd_of_rep rep_zero

theorem sum_one_val {a : B64} {x : ℝ} (ha : a.val = .fin x) : (Flt.sum [a] : B64) = a := by
  have hr := a.rep
  rw [ha] at hr
  apply ext_val
  show Val.add rnd (.fin 0) a.val = _
  rw [ha]
  show rnd (0 + x) = _
  rw [zero_add]
  exact rnd_of_rep hr

instance : BitLaws B64 where
  rnd_neg := rnd_neg
  rnd_double a x ha hx := by
    have ha' : a.val = .fin x := ha
    have hr := a.rep
    rw [ha'] at hr
    refine rnd_of_rep ⟨?_, ?_⟩
    · rw [abs_mul, abs_of_pos (by norm_num : (0 : ℝ) < 2)]
      calc 2 * |x| ≤ 2 ^ 1 * 2 ^ 1000 := by rw [pow_one]; exact mul_le_mul_of_nonneg_left hx (by norm_num)
        _ = 2 ^ 1001 := by rw [← pow_add]
        _ < 2 ^ 1024 := pow_lt_pow_right₀ (by norm_num) (by norm_num)
    · obtain ⟨_, k, e, hk, he, h⟩ := hr
      refine ⟨k, e + 1, hk, by omega, ?_⟩
      rw [h, zpow_add₀ (by norm_num), zpow_one]
      ring
  ext a b x ha hb _ := ext_val (Eq.trans (b := .fin x) ha hb.symm)
  zero_div b y hb hy := by
    have hb' : b.val = .fin y := hb
    apply ext_val
    show (div (Flt.ofInt 0) b).val = _
    unfold div
    rw [ofInt_zero_val, hb']
    simp only [hy.ne', if_false, zero_div]
    show rnd 0 = _
    exact rnd_of_rep rep_zero
  sum_pair a b x y ha hb := sum_pair_val ha hb
  sum_one a x ha _ := sum_one_val ha
  sum_zero := sum_one_val ofInt_zero_val
  sum_zeros := by
    apply ext_val
    rw [sum_pair_val ofInt_zero_val ofInt_zero_val, ofInt_zero_val, add_zero]
    exact rnd_of_rep rep_zero
  square a b x ha hb := by
    have ha' : a.val = .fin x := ha
    have hb' : b.val = .fin (-x) := hb
    apply ext_val
    show Val.mul rnd b.val b.val = Val.mul rnd a.val a.val
    rw [ha', hb']
    show rnd (-x * -x) = rnd (x * x)
    rw [neg_mul_neg]
  sum_swap a b x y ha hb := by
    apply ext_val
    rw [sum_pair_val (a := a) (b := b) ha hb, sum_pair_val (a := b) (b := a) hb ha, add_comm]

end B64
end Visqol
