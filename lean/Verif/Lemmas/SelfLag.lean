import Verif.Props.Lag
import Verif.Lemmas.Envelope
import Mathlib.Order.Interval.Finset.Basic
import Mathlib.Data.Int.Interval
import Mathlib.Algebra.Order.BigOperators.Group.Finset
import Mathlib.Algebra.BigOperators.Intervals

/-! # A signal is best aligned with itself without any shift -/

set_option linter.unusedSectionVars false

namespace Visqol
open Finset

theorem sampleAt_neg {s : List ℝ} {k : ℤ} (h : k < 0) : sampleAt s k = 0 := by
  unfold sampleAt; rw [if_neg (by omega)]

theorem sampleAt_ge {s : List ℝ} {k : ℤ} (h : s.length ≤ k) : sampleAt s k = 0 := by
  unfold sampleAt
  split
  · rw [List.getD_eq_getElem?_getD, List.getElem?_eq_none (by omega)]; rfl
  · rfl

/-- A sum over integers of a function that vanishes outside the positions of a signal. -/
theorem sum_Ico_int {n : ℕ} {f : ℤ → ℝ} (h : ∀ j, j < 0 ∨ (n : ℤ) ≤ j → f j = 0) {a b : ℤ} (ha : a ≤ 0) (hb : n ≤ b) :
    ∑ j ∈ Finset.Ico a b, f j = ∑ i ∈ range n, f i := by
  rw [← Finset.sum_image (s := range n) (g := fun i : ℕ => (i : ℤ)) (f := f) (by intro x _ y _ hxy; simpa using hxy)]
  symm
  apply Finset.sum_subset
  · intro j hj
    obtain ⟨i, hi, rfl⟩ := Finset.mem_image.mp hj
    have := Finset.mem_range.mp hi
    rw [Finset.mem_Ico]; omega
  · intro j _ hj
    apply h
    by_contra hc
    refine hj (Finset.mem_image.mpr ⟨j.toNat, Finset.mem_range.mpr (by omega), by omega⟩)

theorem xcorr_zero (s : List ℝ) : xcorr s s 0 = ∑ j ∈ range s.length, sampleAt s j ^ 2 := by
  unfold xcorr
  apply Finset.sum_congr rfl
  intro j _
  rw [add_zero]; ring

/-- Equality in the Cauchy-Schwarz inequality for a shifted copy forces the signal to vanish. -/
theorem autocorr_strict {s : List ℝ} {k : ℤ} (hk : k ≠ 0) (hkn : |k| < s.length) (h : |xcorr s s 0| ≤ |xcorr s s k|) :
    ∀ x ∈ s, x = 0 := by
  obtain ⟨k1, k2⟩ := abs_lt.mp hkn
  set n := s.length with hn
  have h0 : 0 ≤ xcorr s s 0 := by rw [xcorr_zero]; positivity
  rw [abs_of_nonneg h0] at h
  obtain ⟨σ, hσ, hle⟩ : ∃ σ : ℝ, (σ = 1 ∨ σ = -1) ∧ xcorr s s 0 ≤ σ * xcorr s s k := by
    rcases abs_cases (xcorr s s k) with ⟨h1, _⟩ | ⟨h1, _⟩
    · exact ⟨1, .inl rfl, by rw [h1] at h; linarith⟩
    · exact ⟨-1, .inr rfl, by rw [h1] at h; linarith⟩
  have hσ2 : σ ^ 2 = 1 := by rcases hσ with rfl | rfl <;> norm_num
  have hz : ∀ j : ℤ, j < 0 ∨ (n : ℤ) ≤ j → sampleAt s j = 0 := by
    rintro j (hj | hj)
    · exact sampleAt_neg hj
    · exact sampleAt_ge (by omega)
  have e1 : ∑ j ∈ Finset.Ico (-(n : ℤ)) (2 * n), sampleAt s j ^ 2 = xcorr s s 0 := by
    rw [xcorr_zero]
    apply sum_Ico_int (f := fun j => sampleAt s j ^ 2)
    · intro j hj; simp [hz j hj]
    · omega
    · omega
  have e2 : ∑ j ∈ Finset.Ico (-(n : ℤ)) (2 * n), sampleAt s (j + k) ^ 2 = xcorr s s 0 := by
    have hsh : ∑ j ∈ Finset.Ico (-(n : ℤ)) (2 * n), sampleAt s (j + k) ^ 2 =
        ∑ j ∈ Finset.Ico (-(n : ℤ) + k) (2 * n + k), sampleAt s j ^ 2 := by
      rw [← Finset.image_add_right_Ico, Finset.sum_image (by intro x _ y _ hxy; simpa using hxy)]
    rw [hsh, xcorr_zero]
    apply sum_Ico_int (f := fun j => sampleAt s j ^ 2)
    · intro j hj; simp [hz j hj]
    · omega
    · omega
  have e3 : ∑ j ∈ Finset.Ico (-(n : ℤ)) (2 * n), sampleAt s (j + k) * sampleAt s j = xcorr s s k := by
    unfold xcorr
    apply sum_Ico_int (f := fun j => sampleAt s (j + k) * sampleAt s j)
    · intro j hj; simp [hz j hj]
    · omega
    · omega
  have hsum : ∑ j ∈ Finset.Ico (-(n : ℤ)) (2 * n), (sampleAt s (j + k) - σ * sampleAt s j) ^ 2 ≤ 0 := by
    have : ∀ j : ℤ, (sampleAt s (j + k) - σ * sampleAt s j) ^ 2 =
        sampleAt s (j + k) ^ 2 + sampleAt s j ^ 2 - 2 * σ * (sampleAt s (j + k) * sampleAt s j) := by
      intro j
      have : (sampleAt s (j + k) - σ * sampleAt s j) ^ 2 =
        sampleAt s (j + k) ^ 2 + σ ^ 2 * sampleAt s j ^ 2 - 2 * σ * (sampleAt s (j + k) * sampleAt s j) := by ring
      rw [this, hσ2, one_mul]
    simp only [this]
    rw [Finset.sum_sub_distrib, Finset.sum_add_distrib, e1, e2, ← Finset.mul_sum, e3]
    linarith
  have hall := (Finset.sum_eq_zero_iff_of_nonneg (fun j _ => sq_nonneg _)).mp
    (le_antisymm hsum (Finset.sum_nonneg fun j _ => sq_nonneg _))
  have hstep : ∀ j : ℤ, 0 ≤ j → j < n → |sampleAt s j| = |sampleAt s (j + k)| := by
    intro j h1 h2
    have := hall j (by rw [Finset.mem_Ico]; omega)
    have := pow_eq_zero_iff (two_ne_zero) |>.mp this
    rw [show sampleAt s (j + k) = σ * sampleAt s j by linarith, abs_mul]
    rcases hσ with rfl | rfl <;> simp
  -- walk out of the signal
  have hwalk : ∀ m : ℕ, ∀ j : ℤ, (0 < k → (n : ℤ) - j ≤ m) → (k < 0 → j < m) → sampleAt s j = 0 := by
    intro m
    induction m with
    | zero =>
      intro j a1 a2
      rcases lt_or_gt_of_ne hk with hk | hk
      · exact hz j (.inl (by simpa using a2 hk))
      · have := a1 hk
        exact hz j (.inr (by simpa using this))
    | succ m ih =>
      intro j a1 a2
      by_cases hj : j < 0 ∨ (n : ℤ) ≤ j
      · exact hz j hj
      · have := ih (j + k) (fun h => by have := a1 h; push_cast at this; omega) (fun h => by have := a2 h; push_cast at this; omega)
        rw [← abs_eq_zero, hstep j (by omega) (by omega), this, abs_zero]
  intro x hx
  obtain ⟨i, hi, rfl⟩ := List.getElem_of_mem hx
  have := hwalk (n + 1) i (fun _ => by push_cast; omega) (fun _ => by push_cast; omega)
  unfold sampleAt at this
  rw [if_pos (by omega), Int.toNat_natCast, List.getD_eq_getElem?_getD, List.getElem?_eq_getElem hi] at this
  exact this

/-- The best lag of a signal against itself is 0, or the signal vanishes and the most negative lag is returned. -/
theorem bestLag_self (p : Profile) {s : List ℝ} (h9 : 9 ≤ s.length) (hbig : s.length ≤ 2 ^ 62) :
    ∃ lag : ℤ, calculateBestLag p s s = .ok (some lag) ∧ (lag = 0 ∨ lag.natAbs = s.length - 1) := by
  obtain ⟨lag, h1, h2, h3, _⟩ := bestLag_spec p s s (by omega) (by omega)
  rw [max_self] at h2 h3
  refine ⟨lag, h1, ?_⟩
  by_cases hl : lag = 0
  · exact .inl hl
  · right
    have hz := autocorr_strict hl h2 (h3 0 (by simp; omega)).1
    have hx : ∀ k, xcorr s s k = 0 := by
      intro k
      unfold xcorr
      apply Finset.sum_eq_zero
      intro j hj
      have hj := Finset.mem_range.mp hj
      have : sampleAt s (j : ℤ) = 0 := by
        unfold sampleAt
        rw [if_pos (by omega), Int.toNat_natCast, List.getD_eq_getElem?_getD, List.getElem?_eq_getElem hj]
        exact hz _ (List.getElem_mem hj)
      rw [this, mul_zero]
    have := (h3 (-((s.length : ℤ) - 1)) (by rw [abs_lt]; omega)).2 (by rw [hx, hx])
    have := abs_lt.mp h2
    omega

/-- Aligning a signal with itself changes nothing. -/
theorem globallyAlign_self (p : Profile) {s : AudioSignal ℝ} (h9 : 9 ≤ s.data.length) (hbig : s.data.length ≤ 2 ^ 62) :
    globallyAlign p s s = .ok (some (s, 0)) := by
  obtain ⟨env, he, hl⟩ := calculateUpperEnv_total (p := p) (s := s.data) (by intro h; rw [h] at h9; simp at h9) (by omega)
  obtain ⟨lag, h1, h2⟩ := bestLag_self p (s := env) (by omega) (by omega)
  unfold globallyAlign
  rw [he]
  simp only [ok_bind]
  rw [h1]
  simp only [ok_bind]
  rw [if_pos (by omega), real_lit0]

theorem alignAndTruncate_self (p : Profile) {s : AudioSignal ℝ} (h9 : 9 ≤ s.data.length) (hbig : s.data.length ≤ 2 ^ 62) :
    alignAndTruncate p s s = .ok (some (s, s, 0)) := by
  unfold alignAndTruncate
  rw [globallyAlign_self p h9 hbig]
  simp only [ok_bind]
  rw [if_neg (by omega), if_neg (by omega)]

end Visqol
