import Verif.Num.Ieee
import Verif.Lemmas.Prepare

/-! # Consequences of the binary64 laws -/

set_option linter.unusedSectionVars false

namespace Visqol
open Ieee
variable {F : Type} [Flt F] [Ieee F]

theorem rnd_int (F : Type) [Flt F] [Ieee F] {k : ℤ} (h : |k| ≤ 2 ^ 53) : rnd F (k : ℝ) = .fin (k : ℝ) := by
  have := rnd_dyadic (F := F) k 0 h (by norm_num) (by norm_num)
  simpa using this

theorem rnd_nat (F : Type) [Flt F] [Ieee F] {n : ℕ} (h : n ≤ 2 ^ 53) : rnd F (n : ℝ) = .fin (n : ℝ) := by
  have := rnd_int F (k := (n : ℤ)) (by rw [abs_of_nonneg (by omega)]; exact_mod_cast h)
  simpa using this

theorem rnd_zero (F : Type) [Flt F] [Ieee F] : rnd F 0 = .fin 0 := by
  have := rnd_nat F (n := 0) (by norm_num)
  simpa using this

theorem rnd_one (F : Type) [Flt F] [Ieee F] : rnd F 1 = .fin 1 := by
  have := rnd_nat F (n := 1) (by norm_num)
  simpa using this

theorem val_nat {n : ℕ} (h : n ≤ 2 ^ 53) : val (Flt.ofNat n : F) = .fin n := by rw [val_ofNat, rnd_nat F h]

theorem val_lit {m e : ℕ} {x : ℝ} (h : (m : ℝ) / 10 ^ e = x) :
    val (Flt.toOfScientific.ofScientific m true e : F) = rnd F x := by rw [val_sci, if_pos rfl, h]

theorem val_0 : val (0.0 : F) = .fin 0 := by rw [val_lit (x := 0) (by norm_num), rnd_zero]
theorem val_1 : val (1.0 : F) = .fin 1 := by rw [val_lit (x := 1) (by norm_num), rnd_one]

theorem val_litnat {m e k : ℕ} (h : m = k * 10 ^ e) (hk : k ≤ 2 ^ 53) :
    val (Flt.toOfScientific.ofScientific m true e : F) = .fin k := by
  rw [val_lit (x := (k : ℝ)) (by rw [h]; push_cast; field_simp), rnd_nat F hk]

theorem val_2 : val (2.0 : F) = .fin 2 := by
  have := val_litnat (F := F) (m := 20) (e := 1) (k := 2) (by norm_num) (by norm_num); exact_mod_cast this
theorem val_5 : val (5.0 : F) = .fin 5 := by
  have := val_litnat (F := F) (m := 50) (e := 1) (k := 5) (by norm_num) (by norm_num); exact_mod_cast this
theorem val_10 : val (10.0 : F) = .fin 10 := by
  have := val_litnat (F := F) (m := 100) (e := 1) (k := 10) (by norm_num) (by norm_num); exact_mod_cast this
theorem val_20 : val (20.0 : F) = .fin 20 := by
  have := val_litnat (F := F) (m := 200) (e := 1) (k := 20) (by norm_num) (by norm_num); exact_mod_cast this
theorem val_45 : val (45.0 : F) = .fin 45 := by
  have := val_litnat (F := F) (m := 450) (e := 1) (k := 45) (by norm_num) (by norm_num); exact_mod_cast this
theorem val_quarter : val (0.25 : F) = .fin (1 / 4) := by
  rw [val_lit (x := 1 / 4) (by norm_num)]
  have := rnd_dyadic (F := F) 1 (-2) (by norm_num) (by norm_num) (by norm_num)
  rw [show ((1 : ℤ) : ℝ) * 2 ^ (-2 : ℤ) = 1 / 4 by norm_num [zpow_neg]] at this
  exact this

/-! ## NaN -/

theorem isNaN_val (a : F) : Flt.isNaN a = true ↔ val a = .nan := by
  unfold Flt.isNaN
  rw [eq_val]
  cases val a <;> simp [Val.eq]

theorem isNaN_false {a : F} : Flt.isNaN a = false ↔ val a ≠ .nan := by
  rw [← Bool.not_eq_true, isNaN_val]

theorem nan_add {a b : F} (h : val a = .nan ∨ val b = .nan) : val (a + b) = .nan := by
  rw [val_add]
  rcases h with h | h <;> rw [h]
  · rfl
  · cases val a <;> rfl

theorem nan_sub {a b : F} (h : val a = .nan ∨ val b = .nan) : val (a - b) = .nan := by
  rw [val_sub]
  rcases h with h | h <;> rw [h]
  · rfl
  · cases val a <;> rfl

theorem nan_mul {a b : F} (h : val a = .nan ∨ val b = .nan) : val (a * b) = .nan := by
  rw [val_mul]
  rcases h with h | h <;> rw [h]
  · rfl
  · cases val a <;> rfl

theorem nan_abs {a : F} (h : val a = .nan) : val (Flt.abs a) = .nan := by rw [val_abs, h]; rfl
theorem nan_neg {a : F} (h : val a = .nan) : val (-a) = .nan := by rw [val_neg, h]; rfl

theorem partialCmp_nan {a b : F} (h : val a = .nan ∨ val b = .nan) : Flt.partialCmp a b = none := by
  unfold Flt.partialCmp
  simp only [lt_val, eq_val]
  rcases h with h | h <;> rw [h]
  · cases val b <;> simp [Val.lt, Val.eq]
  · cases val a <;> simp [Val.lt, Val.eq]

/-! ## Finite numbers -/

/-- The number is finite with value `x`. -/
def Is (a : F) (x : ℝ) : Prop := val a = .fin x

theorem Is.lt {a b : F} {x y : ℝ} (ha : Is a x) (hb : Is b y) : Flt.lt a b = decide (x < y) := by
  rw [lt_val, ha, hb]; rfl

theorem Is.eq {a b : F} {x y : ℝ} (ha : Is a x) (hb : Is b y) : Flt.eq a b = decide (x = y) := by
  rw [eq_val, ha, hb]; rfl

theorem Is.notNaN {a : F} {x : ℝ} (ha : Is a x) : Flt.isNaN a = false := by
  rw [isNaN_false, ha]; simp

theorem Is.max {a b : F} {x y : ℝ} (ha : Is a x) (hb : Is b y) : Is (Flt.max a b) (Max.max x y) := by
  unfold Flt.max
  rw [ha.notNaN, hb.notNaN, ha.lt hb]
  by_cases h : x < y
  · simp only [h, decide_true, Bool.false_eq_true, if_false, if_true]; rw [max_eq_right h.le]; exact hb
  · simp only [h, decide_false, Bool.false_eq_true, if_false]; rw [max_eq_left (not_lt.mp h)]; exact ha

theorem Is.min {a b : F} {x y : ℝ} (ha : Is a x) (hb : Is b y) : Is (Flt.min a b) (Min.min x y) := by
  unfold Flt.min
  rw [ha.notNaN, hb.notNaN, hb.lt ha]
  by_cases h : y < x
  · simp only [h, decide_true, Bool.false_eq_true, if_false, if_true]; rw [min_eq_right h.le]; exact hb
  · simp only [h, decide_false, Bool.false_eq_true, if_false]; rw [min_eq_left (not_lt.mp h)]; exact ha

theorem max_nan_right {a b : F} {x : ℝ} (ha : Is a x) (hb : val b = .nan) : Flt.max a b = a := by
  unfold Flt.max
  rw [ha.notNaN, (isNaN_val b).mpr hb]; rfl

theorem Is.add {a b : F} {x y : ℝ} (ha : Is a x) (hb : Is b y) : val (a + b) = rnd F (x + y) := by
  rw [val_add, ha, hb]; rfl
theorem Is.sub {a b : F} {x y : ℝ} (ha : Is a x) (hb : Is b y) : val (a - b) = rnd F (x - y) := by
  rw [val_sub, ha, hb, sub_eq_add_neg]; rfl
theorem Is.mul {a b : F} {x y : ℝ} (ha : Is a x) (hb : Is b y) : val (a * b) = rnd F (x * y) := by
  rw [val_mul, ha, hb]; rfl
theorem Is.div {a b : F} {x y : ℝ} (ha : Is a x) (hb : Is b y) (h : y ≠ 0) : val (a / b) = rnd F (x / y) := div_fin a b x y ha hb h
theorem Is.neg {a : F} {x : ℝ} (ha : Is a x) : Is (-a) (-x) := by
  show val (-a) = _
  rw [val_neg, ha]; rfl
theorem Is.abs {a : F} {x : ℝ} (ha : Is a x) : Is (Flt.abs a) |x| := by
  show val (Flt.abs a) = _
  rw [val_abs, ha]; rfl

/-- Rounding of a number of moderate size. -/
theorem rnd_fin (F : Type) [Flt F] [Ieee F] {x : ℝ} (h : |x| ≤ 2 ^ 1000) : ∃ y, rnd F x = .fin y ∧ |y| ≤ 2 * |x| + 1 := by
  obtain ⟨y, h1, h2⟩ := rnd_acc (F := F) x h
  refine ⟨y, h1, ?_⟩
  have h3 : |y| ≤ |y - x| + |x| := by
    have := abs_add_le (y - x) x; simpa using this
  have h4 : |x| / 2 ^ 52 ≤ |x| := div_le_self (abs_nonneg _) (by norm_num)
  have h5 : (1 : ℝ) / 2 ^ 1000 ≤ 1 := by
    rw [div_le_one (by positivity)]; exact one_le_pow₀ (by norm_num)
  linarith

theorem rnd_small (F : Type) [Flt F] [Ieee F] {x : ℝ} (h : |x| ≤ 2 ^ 100) : ∃ y, rnd F x = .fin y ∧ |y| ≤ 2 * |x| + 1 :=
  rnd_fin F (h.trans (pow_le_pow_right₀ (by norm_num) (by norm_num)))

end Visqol
