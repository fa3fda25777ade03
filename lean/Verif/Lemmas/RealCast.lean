import Verif.Model.Audio
import Verif.Num.Real
import Mathlib.Algebra.Order.Floor.Semifield

/-! # Casts to integers in exact arithmetic -/

namespace Visqol

theorem realTrunc_nonneg {x : ℝ} (h : 0 ≤ x) : realTrunc x = ⌊x⌋ := by rw [realTrunc, if_pos h]

/-- `x as usize` in exact arithmetic, in range. -/
theorem real_toUsize_floor {x : ℝ} (h : 0 ≤ x) (hx : x < 18446744073709551616) : Flt.toUsize x = ⌊x⌋₊ := by
  show (realToInt 0 18446744073709551615 x).toNat = _
  unfold realToInt
  rw [realTrunc_nonneg h]
  have h1 : ⌊x⌋ ≤ 18446744073709551615 := by
    have : ⌊x⌋ < 18446744073709551616 := Int.floor_lt.mpr (by exact_mod_cast hx)
    omega
  have h2 : 0 ≤ ⌊x⌋ := Int.floor_nonneg.mpr h
  rw [min_eq_right h1, max_eq_right h2]
  rfl

theorem real_toUsize_nonpos {x : ℝ} (h : x ≤ 0) : Flt.toUsize x = 0 := by
  show (realToInt 0 18446744073709551615 x).toNat = _
  unfold realToInt
  have : realTrunc x ≤ 0 := by
    unfold realTrunc
    split
    · have : x = 0 := le_antisymm h ‹_›
      rw [this]; simp
    · exact Int.ceil_le.mpr (by simpa using h)
  rw [max_eq_left]
  · rfl
  · exact (min_le_right _ _).trans this

/-- The window of 0.08 s in samples, rounded to nearest. -/
theorem window_size (sr : Nat) (hs : sr < 18446744073709551616) :
    (AnalysisWindow.mk' (F := ℝ) sr 0.25 0.08).size = (8 * sr + 50) / 100 := by
  show Flt.toUsize (Flt.round (Flt.ofNat sr * _)) = _
  have e : (Flt.ofNat sr * (Flt.toOfScientific.ofScientific 8 true 2) : ℝ) + 1 / 2 = ((8 * sr + 50 : ℕ) : ℝ) / (100 : ℕ) := by
    simp only [real_sci, real_ofNat]; push_cast; ring
  have h0 : (0 : ℝ) ≤ Flt.ofNat sr * (Flt.toOfScientific.ofScientific 8 true 2) := by
    simp only [real_sci, real_ofNat]; positivity
  have h1 : (Flt.round (Flt.ofNat sr * (Flt.toOfScientific.ofScientific 8 true 2)) : ℝ) = (((8 * sr + 50) / 100 : ℕ) : ℝ) := by
    rw [real_round]
    unfold realRound
    rw [if_pos h0, e, ← Nat.floor_div_eq_div (K := ℝ), ← natCast_floor_eq_intCast_floor (by positivity)]
  have h2 : (8 * sr + 50) / 100 < 18446744073709551616 := by omega
  have h3 : (Flt.round (Flt.ofNat sr * (0.08 : ℝ)) : ℝ) = (((8 * sr + 50) / 100 : ℕ) : ℝ) := h1
  rw [h3, real_toUsize_floor (Nat.cast_nonneg _) (by exact_mod_cast h2), Nat.floor_natCast]

/-- The hop is a quarter of the window. -/
theorem hop_quarter {w : AnalysisWindow ℝ} (ho : w.overlap = 0.25) (hs : w.size < 18446744073709551616) :
    w.hop = w.size / 4 := by
  unfold AnalysisWindow.hop
  have e : (Flt.ofNat w.size * w.overlap : ℝ) = (w.size : ℝ) / (4 : ℕ) := by
    rw [ho]; simp only [real_ofNat]; norm_num; ring
  rw [e, real_toUsize_floor (by positivity), Nat.floor_div_eq_div]
  have h1 : (w.size : ℝ) < 18446744073709551616 := by exact_mod_cast hs
  have h2 : (0 : ℝ) ≤ w.size := Nat.cast_nonneg _
  push_cast
  linarith

end Visqol
