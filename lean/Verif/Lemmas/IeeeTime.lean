import Verif.Lemmas.Ieee
import Verif.Lemmas.RealCast
import Verif.Spec.Columns
import Verif.Lemmas.Basic
import Mathlib.Tactic.FieldSimp

/-! # Times and sample positions in floating point

Relative error bounds for the products, quotients and sums by which columns are turned into times and back into samples. -/

set_option linter.unusedSectionVars false

namespace Visqol
open Ieee
variable {F : Type} [Flt F] [Ieee F]

/-- `a` is the non-negative number `x` up to relative error `e`. -/
def Rel (a : F) (x e : ℝ) : Prop := 0 ≤ x ∧ ∃ y, Is a y ∧ |y - x| ≤ e * x

/-- Zero, or far from the ends of the exponent range. -/
def Mid (x : ℝ) : Prop := x = 0 ∨ (1 / 2 ^ 200 ≤ x ∧ x ≤ 2 ^ 200)

theorem Mid.nonneg {x : ℝ} (h : Mid x) : 0 ≤ x := by
  rcases h with rfl | h
  · rfl
  · exact le_trans (by positivity) h.1

theorem mid_nat {n : ℕ} (h : n ≤ 2 ^ 200) : Mid (n : ℝ) := by
  by_cases h0 : n = 0
  · left; simp [h0]
  · right
    refine ⟨?_, by exact_mod_cast h⟩
    have : (1 : ℝ) ≤ n := by exact_mod_cast Nat.one_le_iff_ne_zero.mpr h0
    refine le_trans ?_ this
    rw [div_le_one (by positivity)]
    exact one_le_pow₀ (by norm_num)

/-- Rounding has relative error `2⁻⁵¹`. -/
theorem rnd_rel (F : Type) [Flt F] [Ieee F] {x : ℝ} (h : x = 0 ∨ (1 / 2 ^ 900 ≤ x ∧ x ≤ 2 ^ 900)) :
    ∃ y, rnd F x = .fin y ∧ |y - x| ≤ 1 / 2 ^ 51 * x := by
  rcases h with rfl | ⟨h1, h2⟩
  · exact ⟨0, rnd_zero F, by simp⟩
  · have h0 : 0 < x := lt_of_lt_of_le (by positivity) h1
    obtain ⟨y, hy, he⟩ := rnd_acc (F := F) x (by
      rw [abs_of_pos h0]
      exact h2.trans (pow_le_pow_right₀ (by norm_num) (by norm_num)))
    refine ⟨y, hy, he.trans ?_⟩
    rw [abs_of_pos h0]
    have h3 : (1 : ℝ) / 2 ^ 1000 ≤ 1 / 2 ^ 52 * x := by
      calc (1 : ℝ) / 2 ^ 1000 ≤ 1 / 2 ^ 952 := by
            apply div_le_div_of_nonneg_left (by norm_num) (by positivity)
            exact pow_le_pow_right₀ (by norm_num) (by norm_num)
        _ = 1 / 2 ^ 52 * (1 / 2 ^ 900) := by rw [div_mul_div_comm, ← pow_add, one_mul]
        _ ≤ 1 / 2 ^ 52 * x := by
            apply mul_le_mul_of_nonneg_left h1
            positivity
    have h4 : x / 2 ^ 52 = 1 / 2 ^ 52 * x := by ring
    have h5 : (1 : ℝ) / 2 ^ 51 * x = 1 / 2 ^ 52 * x + 1 / 2 ^ 52 * x := by ring
    linarith

theorem Rel.exact {a : F} {x : ℝ} (h : Is a x) (h0 : 0 ≤ x) : Rel a x 0 := ⟨h0, x, h, by simp⟩

theorem Rel.mono {a : F} {x e f : ℝ} (h : Rel a x e) (hf : e ≤ f) : Rel a x f := by
  obtain ⟨h0, y, h1, h2⟩ := h
  exact ⟨h0, y, h1, h2.trans (mul_le_mul_of_nonneg_right hf h0)⟩

/-- The rounding of a number that is known up to a relative error. -/
theorem rel_round {a : F} {t x e : ℝ} (hx : Mid x ∨ x = 0 ∨ (1 / 2 ^ 400 ≤ x ∧ x ≤ 2 ^ 400)) (ha : val a = rnd F t) (ht : |t - x| ≤ e * x)
    (he0 : 0 ≤ e) (he : e ≤ 1 / 2 ^ 40) : Rel a x (e + 1 / 2 ^ 50) := by
  have hx' : x = 0 ∨ (1 / 2 ^ 400 ≤ x ∧ x ≤ 2 ^ 400) := by
    rcases hx with h | h
    · rcases h with h | h
      · exact .inl h
      · right
        refine ⟨le_trans ?_ h.1, h.2.trans ?_⟩
        · apply div_le_div_of_nonneg_left (by norm_num) (by positivity)
          exact pow_le_pow_right₀ (by norm_num) (by norm_num)
        · exact pow_le_pow_right₀ (by norm_num) (by norm_num)
    · exact h
  rcases hx' with rfl | ⟨h1, h2⟩
  · have : t = 0 := by simpa using ht
    subst this
    exact ⟨le_rfl, 0, by rw [Is, ha, rnd_zero], by simp⟩
  · have hx0 : 0 < x := lt_of_lt_of_le (by positivity) h1
    have he1 : e * x ≤ x / 2 := by
      have : e ≤ 1 / 2 := he.trans (by norm_num)
      nlinarith
    have ht2 := abs_le.mp ht
    obtain ⟨y, hy, hye⟩ := rnd_rel F (x := t) (.inr ⟨by
      have : (1 : ℝ) / 2 ^ 900 ≤ 1 / 2 ^ 400 / 2 := by
        rw [div_div, ← pow_succ]
        apply div_le_div_of_nonneg_left (by norm_num) (by positivity)
        exact pow_le_pow_right₀ (by norm_num) (by norm_num)
      linarith, by
      have : (2 : ℝ) * 2 ^ 400 ≤ 2 ^ 900 := by
        rw [← pow_succ']
        exact pow_le_pow_right₀ (by norm_num) (by norm_num)
      refine le_trans ?_ this
      generalize (2 : ℝ) ^ 400 = P at *
      clear this
      linarith⟩)
    refine ⟨hx0.le, y, by rw [Is, ha, hy], ?_⟩
    have htx : 1 / 2 ^ 51 * t ≤ 1 / 2 ^ 50 * x := by
      have : t ≤ 2 * x := by linarith
      have : (1 : ℝ) / 2 ^ 51 * t ≤ 1 / 2 ^ 51 * (2 * x) := by gcongr
      calc _ ≤ _ := this
        _ = _ := by ring
    calc |y - x| = |(y - t) + (t - x)| := by ring_nf
      _ ≤ |y - t| + |t - x| := abs_add_le _ _
      _ ≤ 1 / 2 ^ 50 * x + e * x := add_le_add (hye.trans htx) ht
      _ = (e + 1 / 2 ^ 50) * x := by ring

theorem Mid.mul {x y : ℝ} (hx : Mid x) (hy : Mid y) : x * y = 0 ∨ (1 / 2 ^ 400 ≤ x * y ∧ x * y ≤ 2 ^ 400) := by
  rcases hx with rfl | hx
  · left; simp
  rcases hy with rfl | hy
  · left; simp
  right
  have x0 : 0 ≤ x := le_trans (by positivity) hx.1
  constructor
  · calc (1 : ℝ) / 2 ^ 400 = 1 / 2 ^ 200 * (1 / 2 ^ 200) := by rw [div_mul_div_comm, ← pow_add, one_mul]
      _ ≤ x * y := mul_le_mul hx.1 hy.1 (by positivity) x0
  · calc x * y ≤ 2 ^ 200 * 2 ^ 200 := mul_le_mul hx.2 hy.2 (le_trans (by positivity) hy.1) (by positivity)
      _ = 2 ^ 400 := by rw [← pow_add]

theorem Rel.mul {a b : F} {x y e f : ℝ} (ha : Rel a x e) (hb : Rel b y f) (hx : Mid x) (hy : Mid y)
    (e0 : 0 ≤ e) (f0 : 0 ≤ f) (he : e ≤ 1 / 2 ^ 45) (hf : f ≤ 1 / 2 ^ 45) : Rel (a * b) (x * y) (e + f + 1 / 2 ^ 49) := by
  obtain ⟨x0, x', hx', ex⟩ := ha
  obtain ⟨y0, y', hy', ey⟩ := hb
  have key : |x' * y' - x * y| ≤ (e + f + e * f) * (x * y) := by
    calc |x' * y' - x * y| = |(x' - x) * (y' - y) + (x' - x) * y + x * (y' - y)| := by ring_nf
      _ ≤ |(x' - x) * (y' - y)| + |(x' - x) * y| + |x * (y' - y)| :=
          (abs_add_le _ _).trans (add_le_add (abs_add_le _ _) le_rfl)
      _ = |x' - x| * |y' - y| + |x' - x| * y + x * |y' - y| := by
          rw [abs_mul, abs_mul, abs_mul, abs_of_nonneg x0, abs_of_nonneg y0]
      _ ≤ (e * x) * (f * y) + (e * x) * y + x * (f * y) := by gcongr
      _ = (e + f + e * f) * (x * y) := by ring
  have hef : e * f ≤ 1 / 2 ^ 50 := by
    calc e * f ≤ 1 / 2 ^ 45 * (1 / 2 ^ 45) := mul_le_mul he hf f0 (by positivity)
      _ ≤ 1 / 2 ^ 50 := by norm_num
  refine (rel_round (.inr (hx.mul hy)) (Is.mul hx' hy') key (by positivity) ?_).mono ?_
  · calc e + f + e * f ≤ 1 / 2 ^ 45 + 1 / 2 ^ 45 + 1 / 2 ^ 50 := by gcongr
      _ ≤ 1 / 2 ^ 40 := by norm_num
  · have : (1 : ℝ) / 2 ^ 49 = 1 / 2 ^ 50 + 1 / 2 ^ 50 := by norm_num
    linarith

theorem Rel.div_exact {a b : F} {x y e : ℝ} (ha : Rel a x e) (hb : Is b y) (hx : Mid x) (hy : Mid y) (y0 : 0 < y)
    (e0 : 0 ≤ e) (he : e ≤ 1 / 2 ^ 45) : Rel (a / b) (x / y) (e + 1 / 2 ^ 50) := by
  obtain ⟨x0, x', hx', ex⟩ := ha
  have hinv : Mid (1 / y) := by
    rcases hy with h | h
    · exact absurd h y0.ne'
    · right
      constructor
      · exact one_div_le_one_div_of_le y0 h.2
      · rw [div_le_iff₀ y0]
        have := h.1
        rw [div_le_iff₀ (by positivity)] at this
        linarith
  have hm := hx.mul hinv
  rw [mul_one_div] at hm
  refine rel_round (.inr hm) (Is.div hx' hb y0.ne') ?_ e0 (he.trans (by norm_num))
  rw [← sub_div, abs_div, abs_of_pos y0, mul_div_assoc']
  exact div_le_div_of_nonneg_right ex y0.le

theorem Rel.add {a b : F} {x y e : ℝ} (ha : Rel a x e) (hb : Rel b y e) (hm : Mid (x + y)) (e0 : 0 ≤ e) (he : e ≤ 1 / 2 ^ 45) :
    Rel (a + b) (x + y) (e + 1 / 2 ^ 50) := by
  obtain ⟨x0, x', hx', ex⟩ := ha
  obtain ⟨y0, y', hy', ey⟩ := hb
  refine rel_round (.inl hm) (Is.add hx' hy') ?_ e0 (he.trans (by norm_num))
  calc |x' + y' - (x + y)| = |(x' - x) + (y' - y)| := by ring_nf
    _ ≤ |x' - x| + |y' - y| := abs_add_le _ _
    _ ≤ e * x + e * y := add_le_add ex ey
    _ = e * (x + y) := by ring

/-- Conversion to an index. -/
theorem toUsize_fin {a : F} {z : ℝ} (h : Is a z) (h0 : 0 ≤ z) (h1 : z < 18446744073709551616) : Flt.toUsize a = ⌊z⌋₊ := by
  rw [toUsize_val, h, ← real_toUsize_floor h0 h1]; rfl

theorem toUsize_rel {a : F} {x e : ℝ} (h : Rel a x e) (hx : x < 2 ^ 60) (he0 : 0 ≤ e) (he : e ≤ 1 / 2) (d : ℝ) (hd : e * x ≤ d) :
    ∃ n : ℕ, Flt.toUsize a = n ∧ (n : ℝ) ≤ x + d ∧ x - d < n + 1 := by
  obtain ⟨x0, y, hy, ey⟩ := h
  have h1 := abs_le.mp ey
  have hex : e * x ≤ x / 2 := by nlinarith
  have y0 : 0 ≤ y := by linarith
  have h2 := toUsize_fin hy y0 (by norm_num at hx; linarith)
  refine ⟨_, h2, ?_, ?_⟩
  · have := Nat.floor_le y0
    linarith
  · have := Nat.lt_floor_add_one y
    linarith

theorem toUsize_nat {n : ℕ} (h : n ≤ 2 ^ 53) {a : F} (ha : val a = .fin n) : Flt.toUsize a = n := by
  rw [toUsize_fin ha (Nat.cast_nonneg n) ?_, Nat.floor_natCast]
  have : (n : ℝ) ≤ 2 ^ 53 := by exact_mod_cast h
  norm_num at this ⊢
  linarith

/-- A quarter of a natural number is exact. -/
theorem quarter_exact {n : ℕ} (h : n ≤ 2 ^ 53) : Is ((Flt.ofNat n : F) * 0.25) ((n : ℝ) / 4) := by
  have := Is.mul (val_nat (F := F) h) (val_quarter (F := F))
  rw [Is, this]
  have h2 := rnd_dyadic (F := F) n (-2) (by rw [abs_of_nonneg (by omega)]; exact_mod_cast h) (by norm_num) (by norm_num)
  rw [show ((n : ℤ) : ℝ) * 2 ^ (-2 : ℤ) = (n : ℝ) * (1 / 4) by norm_num [zpow_neg]] at h2
  rw [h2]
  congr 1
  ring

theorem ieee_hop {n : ℕ} (h : n ≤ 2 ^ 53) : (AnalysisWindow.mk n (0.25 : F)).hop = n / 4 := by
  show Flt.toUsize ((Flt.ofNat n : F) * 0.25) = _
  rw [toUsize_fin (quarter_exact h) (by positivity), show (4 : ℝ) = ((4 : ℕ) : ℝ) by norm_num, Nat.floor_div_eq_div]
  have : (n : ℝ) ≤ 9007199254740992 := by exact_mod_cast h
  push_cast
  linarith

theorem ieee_window {sr : ℕ} (h : sr < 4294967296) : (AnalysisWindow.mk' sr (0.25 : F) 0.08).size = windowSamples sr := by
  show Flt.toUsize (Flt.round ((Flt.ofNat sr : F) * 0.08)) = _
  have hsr : sr ≤ 2 ^ 53 := by omega
  have h8 : Rel (0.08 : F) (8 / 100) (1 / 2 ^ 51) := by
    obtain ⟨y, hy, he⟩ := rnd_rel F (x := 8 / 100) (.inr ⟨by
      rw [div_le_div_iff₀ (by positivity) (by norm_num)]
      have : (2 : ℝ) ^ 4 ≤ 2 ^ 900 := pow_le_pow_right₀ (by norm_num) (by norm_num)
      generalize (2 : ℝ) ^ 900 = P at *
      norm_num at this ⊢
      linarith, by
      have : (1 : ℝ) ≤ 2 ^ 900 := one_le_pow₀ (by norm_num)
      generalize (2 : ℝ) ^ 900 = P at *
      linarith⟩)
    refine ⟨by norm_num, y, ?_, he⟩
    exact (val_lit (by norm_num)).trans hy
  have hm : Mid ((8 : ℝ) / 100) := by
    right
    constructor
    · rw [div_le_div_iff₀ (by positivity) (by norm_num)]
      have : (2 : ℝ) ^ 4 ≤ 2 ^ 200 := pow_le_pow_right₀ (by norm_num) (by norm_num)
      norm_num at this ⊢
    · have : (1 : ℝ) ≤ 2 ^ 200 := one_le_pow₀ (by norm_num)
      linarith
  obtain ⟨_, y, hy, he⟩ := (Rel.exact (val_nat (F := F) hsr) (Nat.cast_nonneg sr)).mul h8
    (mid_nat (by have : (2 : ℕ) ^ 53 ≤ 2 ^ 200 := Nat.pow_le_pow_right (by norm_num) (by norm_num); omega)) hm le_rfl (by positivity) (by positivity)
    (by norm_num)
  have hsr' : (sr : ℝ) ≤ 4294967296 := by exact_mod_cast h.le
  have hd : (0 + 1 / 2 ^ 51 + 1 / 2 ^ 49) * ((sr : ℝ) * (8 / 100)) ≤ 1 / 200 := by norm_num; linarith
  have hyb := abs_le.mp (he.trans hd)
  have hround : realRound y = (windowSamples sr : ℝ) := by
    have hk : windowSamples sr * 100 ≤ 8 * sr + 50 ∧ 8 * sr + 50 < windowSamples sr * 100 + 100 := by unfold windowSamples; omega
    have hk2 : windowSamples sr * 100 + 2 ≤ 8 * sr + 50 ∧ 8 * sr + 50 + 2 ≤ windowSamples sr * 100 + 100 := by omega
    generalize windowSamples sr = W at *
    have g1 : (W : ℝ) * 100 + 2 ≤ 8 * sr + 50 := by exact_mod_cast hk2.1
    have g2 : (8 : ℝ) * sr + 50 + 2 ≤ W * 100 + 100 := by exact_mod_cast hk2.2
    by_cases hp : 0 ≤ y
    · unfold realRound
      rw [if_pos hp]
      have : ⌊y + 1 / 2⌋ = (W : ℤ) := by
        rw [Int.floor_eq_iff]
        push_cast
        constructor <;> linarith
      rw [this]; norm_cast
    · have hW : W = 0 := by
        by_contra hc
        have : (1 : ℝ) ≤ W := by exact_mod_cast Nat.one_le_iff_ne_zero.mpr hc
        linarith
      unfold realRound
      rw [if_neg hp, hW]
      have : ⌈y - 1 / 2⌉ = (0 : ℤ) := by
        rw [Int.ceil_eq_iff]
        push_cast
        have : (0 : ℝ) ≤ sr := Nat.cast_nonneg sr
        constructor <;> linarith
      rw [this]; simp
  have hW53 : windowSamples sr ≤ 2 ^ 53 := by unfold windowSamples; omega
  apply toUsize_nat hW53
  rw [val_round _ _ hy, hround, rnd_nat F hW53]

theorem mid_ratio {n d : ℕ} (hn : n ≤ 2 ^ 100) (hd0 : 0 < d) (hd : d ≤ 2 ^ 100) : Mid ((n : ℝ) / d) := by
  by_cases h0 : n = 0
  · left; simp [h0]
  · right
    have hd0' : (0 : ℝ) < d := by exact_mod_cast hd0
    have h1 : (1 : ℝ) ≤ n := by exact_mod_cast Nat.one_le_iff_ne_zero.mpr h0
    have h2 : (n : ℝ) ≤ 2 ^ 100 := by exact_mod_cast hn
    have h3 : (d : ℝ) ≤ 2 ^ 100 := by exact_mod_cast hd
    have h4 : (1 : ℝ) ≤ d := by exact_mod_cast hd0
    constructor
    · rw [div_le_div_iff₀ (by positivity) hd0']
      calc 1 * (d : ℝ) ≤ 2 ^ 100 := by linarith
        _ ≤ 2 ^ 200 := pow_le_pow_right₀ (by norm_num) (by norm_num)
        _ ≤ n * 2 ^ 200 := le_mul_of_one_le_left (by positivity) h1
    · rw [div_le_iff₀ hd0']
      calc (n : ℝ) ≤ 2 ^ 100 := h2
        _ ≤ 2 ^ 200 := pow_le_pow_right₀ (by norm_num) (by norm_num)
        _ ≤ 2 ^ 200 * d := le_mul_of_one_le_right (by positivity) h4

/-- The frame duration, the start and the end of a stretch of `k` columns from column `o`, as computed. -/
theorem frame_times {W sr o k : ℕ} (hW : W ≤ 2 ^ 40) (h0 : 0 < sr) (hsr : sr < 4294967296) (hok : (o + k) * W ≤ 2 ^ 42) (ho : o ≤ 2 ^ 42)
    (hk : k ≤ 2 ^ 42) {fd : F} (hfd : fd = Flt.ofNat W * 0.25 / Flt.ofNat sr) :
    Rel fd ((W : ℝ) / (4 * sr : ℕ)) (1 / 2 ^ 47) ∧
    Rel (Flt.ofNat o * fd) (((o * W : ℕ) : ℝ) / (4 * sr : ℕ)) (1 / 2 ^ 47) ∧
    Rel (Flt.ofNat o * fd + fd * Flt.ofNat k) ((((o + k) * W : ℕ) : ℝ) / (4 * sr : ℕ)) (1 / 2 ^ 47) ∧
    Rel (Flt.ofNat o * fd * Flt.ofNat sr) (((o * W : ℕ) : ℝ) / 4) (1 / 2 ^ 47) ∧
    Rel ((Flt.ofNat o * fd + fd * Flt.ofNat k) * Flt.ofNat sr) ((((o + k) * W : ℕ) : ℝ) / 4) (1 / 2 ^ 47) := by
  have hs0 : (0 : ℝ) < sr := by exact_mod_cast h0
  have hd0 : 0 < 4 * sr := by omega
  have hd : 4 * sr ≤ 2 ^ 100 := by have : (2 : ℕ) ^ 34 ≤ 2 ^ 100 := Nat.pow_le_pow_right (by norm_num) (by norm_num); omega
  have h42 : (2 : ℕ) ^ 42 ≤ 2 ^ 100 := Nat.pow_le_pow_right (by norm_num) (by norm_num)
  have h100 : (2 : ℕ) ^ 100 ≤ 2 ^ 200 := Nat.pow_le_pow_right (by norm_num) (by norm_num)
  have hoW : o * W ≤ (o + k) * W := Nat.mul_le_mul_right _ (by omega)
  have hkW : k * W ≤ (o + k) * W := Nat.mul_le_mul_right _ (by omega)
  have esr : Is (Flt.ofNat sr : F) (sr : ℝ) := val_nat (by omega)
  have msr : Mid (sr : ℝ) := mid_nat (by omega)
  have mW : Mid ((W : ℝ) / (4 * sr : ℕ)) := mid_ratio (by omega) hd0 hd
  have r1 : Rel fd ((W : ℝ) / (4 * sr : ℕ)) (1 / 2 ^ 50) := by
    have m4 : Mid ((W : ℝ) / 4) := by
      have := mid_ratio (n := W) (d := 4) (by omega) (by norm_num) (by norm_num)
      exact_mod_cast this
    have := (Rel.exact (quarter_exact (F := F) (n := W) (by omega)) (by positivity)).div_exact esr m4 msr hs0 le_rfl (by positivity)
    rw [hfd]
    rw [zero_add, div_div] at this
    push_cast
    exact this
  have r2 : Rel (Flt.ofNat o * fd) (((o * W : ℕ) : ℝ) / (4 * sr : ℕ)) (3 / 2 ^ 50) := by
    have := (Rel.exact (val_nat (F := F) (n := o) (by omega)) (Nat.cast_nonneg o)).mul r1 (mid_nat (by omega)) mW le_rfl
      (by positivity) (by positivity) (by norm_num)
    rw [← mul_div_assoc] at this
    push_cast at this ⊢
    exact this.mono (by norm_num)
  have r3 : Rel (fd * Flt.ofNat k) (((k * W : ℕ) : ℝ) / (4 * sr : ℕ)) (3 / 2 ^ 50) := by
    have := r1.mul (Rel.exact (val_nat (F := F) (n := k) (by omega)) (Nat.cast_nonneg k)) mW (mid_nat (by omega))
      (by positivity) le_rfl (by norm_num) (by positivity)
    rw [mul_comm ((W : ℝ) / _), ← mul_div_assoc] at this
    push_cast at this ⊢
    exact this.mono (by norm_num)
  have hsum : (((o + k) * W : ℕ) : ℝ) / (4 * sr : ℕ) = ((o * W : ℕ) : ℝ) / (4 * sr : ℕ) + ((k * W : ℕ) : ℝ) / (4 * sr : ℕ) := by
    push_cast; ring
  have r4 : Rel (Flt.ofNat o * fd + fd * Flt.ofNat k) ((((o + k) * W : ℕ) : ℝ) / (4 * sr : ℕ)) (4 / 2 ^ 50) := by
    rw [hsum]
    refine (r2.add r3 ?_ (by positivity) (by norm_num)).mono (by norm_num)
    rw [← hsum]
    exact mid_ratio (by omega) hd0 hd
  have hback : ∀ n : ℕ, (n : ℝ) / (4 * sr : ℕ) * sr = (n : ℝ) / 4 := by
    intro n
    push_cast
    field_simp
  refine ⟨r1.mono (by norm_num), r2.mono (by norm_num), r4.mono (by norm_num), ?_, ?_⟩
  · have := r2.mul (Rel.exact esr hs0.le) (mid_ratio (by omega) hd0 hd) msr (by positivity) le_rfl (by norm_num) (by positivity)
    rw [hback] at this
    exact this.mono (by norm_num)
  · have := r4.mul (Rel.exact esr hs0.le) (mid_ratio (by omega) hd0 hd) msr (by positivity) le_rfl (by norm_num) (by positivity)
    rw [hback] at this
    exact this.mono (by norm_num)

/-- The stretch of a signal that belongs to columns `o ... o + k - 1` begins with the sample at `o * W / 4` (rounded down, possibly
one more or less because of rounding errors) and is not empty, if that position lies inside the signal. -/
theorem slice_first {s : AudioSignal F} {W o k : ℕ} (h4 : 4 ≤ W) (hW : W ≤ 2 ^ 40) (h0 : 0 < s.sampleRate) (hsr : s.sampleRate < 4294967296)
    (hok : (o + k) * W ≤ 2 ^ 42) (hk1 : 2 ≤ k) (hin : o * W < 4 * s.data.length) {fd : F}
    (hfd : fd = Flt.ofNat W * 0.25 / Flt.ofNat s.sampleRate) {out : AudioSignal F}
    (h : sliceSignal s (Flt.ofNat o * fd) (Flt.ofNat o * fd + fd * Flt.ofNat k) = .ok out) :
    out.sampleRate = s.sampleRate ∧ ∃ a t, out.data = a :: t ∧ a ∈ s.data := by
  have ho : o ≤ 2 ^ 42 := by nlinarith
  have hk : k ≤ 2 ^ 42 := by nlinarith
  obtain ⟨r1, r2, r3, r4, r5⟩ := frame_times (F := F) hW h0 hsr hok ho hk hfd
  have hoW : o * W ≤ (o + k) * W := Nat.mul_le_mul_right _ (by omega)
  have hbW : o * W + 8 ≤ (o + k) * W := by nlinarith
  have hbig : (((o + k) * W : ℕ) : ℝ) / 4 ≤ 2 ^ 40 := by
    have : (((o + k) * W : ℕ) : ℝ) ≤ 2 ^ 42 := by exact_mod_cast hok
    norm_num at this ⊢
    linarith
  have hbig2 : ((o * W : ℕ) : ℝ) / 4 ≤ 2 ^ 40 := by
    have : ((o * W : ℕ) : ℝ) ≤ (((o + k) * W : ℕ) : ℝ) := by exact_mod_cast hoW
    linarith
  obtain ⟨a, ea, a1, a2⟩ := toUsize_rel r4 (by norm_num at hbig2 ⊢; linarith) (by positivity) (by norm_num) (1 / 100)
    (by norm_num at hbig2 ⊢; linarith)
  obtain ⟨b, eb, b1, b2⟩ := toUsize_rel r5 (by norm_num at hbig ⊢; linarith) (by positivity) (by norm_num) (1 / 100)
    (by norm_num at hbig ⊢; linarith)
  have hlen : a < s.data.length := by
    by_contra hc
    have hc' : ((s.data.length : ℕ) : ℝ) ≤ a := by exact_mod_cast not_lt.mp hc
    have hin' : ((o * W : ℕ) : ℝ) + 1 ≤ 4 * ((s.data.length : ℕ) : ℝ) := by exact_mod_cast hin
    linarith
  have hab : a < b := by
    by_contra hc
    have hc' : (b : ℝ) ≤ a := by exact_mod_cast not_lt.mp hc
    have h1 : ((o * W : ℕ) : ℝ) + 8 ≤ (((o + k) * W : ℕ) : ℝ) := by exact_mod_cast hbW
    linarith
  unfold sliceSignal at h
  dsimp only at h
  rw [ea, eb] at h
  unfold sliceM at h
  rw [if_pos ⟨by omega, by omega⟩] at h
  simp only [ok_bind] at h
  have hlt : Flt.lt (Flt.ofNat o * fd) (0.0 : F) = false := by
    obtain ⟨x0, y, hy, he⟩ := r2
    rw [Is.lt hy (val_0 (F := F)), decide_eq_false_iff_not, not_lt]
    have := abs_le.mp he
    have : 1 / 2 ^ 47 * (((o * W : ℕ) : ℝ) / (4 * s.sampleRate : ℕ)) ≤ ((o * W : ℕ) : ℝ) / (4 * s.sampleRate : ℕ) := by
      have : (1 : ℝ) / 2 ^ 47 ≤ 1 := by norm_num
      nlinarith
    linarith
  rw [hlt] at h
  simp only [Bool.false_eq_true, if_false] at h
  have hd : ∃ t, (s.data.drop a).take (min b s.data.length - a) = s.data[a] :: t := by
    rw [List.drop_eq_getElem_cons hlen]
    obtain ⟨n, hn⟩ : ∃ n, min b s.data.length - a = n + 1 := ⟨min b s.data.length - a - 1, by omega⟩
    rw [hn, List.take_succ_cons]
    exact ⟨_, rfl⟩
  obtain ⟨t, ht⟩ := hd
  rw [ht] at h
  cases h
  refine ⟨rfl, s.data[a], ?_⟩
  split
  · exact ⟨t ++ _, rfl, List.getElem_mem _⟩
  · exact ⟨t, rfl, List.getElem_mem _⟩

end Visqol
