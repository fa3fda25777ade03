import Verif.Props.Envelope
import Verif.Props.Lag
import Verif.Props.Align
import Verif.Spec.Lag

/-! # Which delay the alignment finds (C70) -/

set_option linter.unusedSectionVars false

namespace Visqol

open Spec (IsBestLag IsDelay accepted shift)

/-- The best lag is determined by the two signals. -/
theorem bestLag_unique {s t : List ℝ} {a b : ℤ} (ha : IsBestLag s t a) (hb : IsBestLag s t b) : a = b := by
  obtain ⟨la, a1, a2, a3⟩ := ha.sign
  obtain ⟨lb, b1, b2, b3⟩ := hb.sign
  have hab : |xcorr s t a| = |xcorr s t b| := le_antisymm (hb.best a ha.inside) (ha.best b hb.inside)
  have hl : la = lb := by
    rcases lt_trichotomy la lb with h | h | h
    · have := a3 lb h (abs_lt.mp b1).2
      rw [b2, hab] at this
      exact absurd this (lt_irrefl _)
    · exact h
    · have := b3 la h (abs_lt.mp a1).2
      rw [a2, hab] at this
      exact absurd this (lt_irrefl _)
  have hx : xcorr s t a = xcorr s t b := by rw [← a2, hl, b2]
  exact le_antisymm (ha.first b hb.inside hx.symm) (hb.first a ha.inside hx)

/-- C70: alignment shifts the degraded signal by the best lag of the two envelopes, unless that is more than half the reference. -/
theorem C70_delay (p : Profile) {pad : ℕ → ℕ} (hpad : ∀ n, 1 ≤ n → n ≤ 2 ^ 63 → nextPowTwo p n = .ok (pad n))
    {ref deg : AudioSignal ℝ} (hr : 2 ≤ ref.data.length) (hd : 2 ≤ deg.data.length)
    (h9 : 9 ≤ max ref.data.length deg.data.length) (hbig : max ref.data.length deg.data.length ≤ 2 ^ 62) :
    ∃ z : ℤ, IsDelay pad ref.data deg.data z ∧
      globallyAlign p ref deg = .ok (some (⟨shift z deg.data, deg.sampleRate⟩, (z : ℝ) / deg.sampleRate)) := by
  obtain ⟨m, hm, em⟩ := C56_formula p (s := ref.data) hr (by omega)
  obtain ⟨n, hn, en⟩ := C56_formula p (s := deg.data) hd (by omega)
  have hm' : m = pad ref.data.length := by rw [hpad _ (by omega) (by omega)] at hm; exact (Except.ok.inj hm).symm
  have hn' : n = pad deg.data.length := by rw [hpad _ (by omega) (by omega)] at hn; exact (Except.ok.inj hn).symm
  have lr : (Spec.envelope ref.data (max m 32)).length = ref.data.length := by simp [Spec.envelope]
  have ld : (Spec.envelope deg.data (max n 32)).length = deg.data.length := by simp [Spec.envelope]
  obtain ⟨lag, h1, h2, h3, h4⟩ := bestLag_spec p (Spec.envelope ref.data (max m 32)) (Spec.envelope deg.data (max n 32))
    (by rw [lr, ld]; exact h9) (by rw [lr, ld]; exact hbig)
  refine ⟨accepted ref.data lag, ⟨lag, hm' ▸ hn' ▸ ⟨h2, fun k hk => (h3 k hk).1, fun k hk => (h3 k hk).2, h4⟩, rfl⟩, ?_⟩
  unfold globallyAlign
  rw [em]
  simp only [ok_bind]
  rw [en]
  simp only [ok_bind]
  rw [h1]
  simp only [ok_bind]
  rw [lr, ld] at h2 h3
  by_cases hc : lag = 0 ∨ lag.natAbs > ref.data.length / 2
  · have ha : accepted ref.data lag = 0 := by unfold accepted; split <;> omega
    rw [if_pos hc, ha]
    simp [shift]
  · have ha : accepted ref.data lag = lag := by unfold accepted; rw [if_neg (by omega)]
    rw [if_neg hc, ha]
    unfold shift
    by_cases hneg : lag < 0
    · rw [if_pos hneg]
      have hle : lag.natAbs ≤ deg.data.length := by
        by_contra hcon
        have hz : xcorr (Spec.envelope ref.data (max m 32)) (Spec.envelope deg.data (max n 32)) lag = 0 := by
          unfold xcorr
          refine Finset.sum_eq_zero fun j hj => ?_
          have hj := Finset.mem_range.mp hj
          rw [ld] at hj
          rw [sampleAt, if_neg (by omega), zero_mul]
        have hk : |(-((max ref.data.length deg.data.length : ℕ) - 1 : ℤ))| < (max ref.data.length deg.data.length : ℕ) := by
          rw [abs_lt]; omega
        obtain ⟨a1, a2⟩ := h3 _ hk
        rw [hz, abs_zero] at a1
        have := a2 (by rw [hz]; exact abs_eq_zero.mp (le_antisymm a1 (abs_nonneg _)))
        omega
      rw [sliceM_of_le hle le_rfl]
      simp only [ok_bind]
      rw [List.take_of_length_le (by simp), show lag.toNat = 0 by omega, show (-lag).toNat = lag.natAbs by omega]
      simp
    · rw [if_neg hneg, show (-lag).toNat = 0 by omega]
      simp

/-- C70: the delay is determined by the two signals. -/
theorem C70_unique {pad : ℕ → ℕ} {x y : List ℝ} {a b : ℤ} (ha : IsDelay pad x y a) (hb : IsDelay pad x y b) : a = b := by
  obtain ⟨la, h1, rfl⟩ := ha
  obtain ⟨lb, h2, rfl⟩ := hb
  rw [bestLag_unique h1 h2]

/-- Transform sizes exist for all lengths. -/
theorem pad_exists (p : Profile) : ∃ pad : ℕ → ℕ, ∀ n, 1 ≤ n → n ≤ 2 ^ 63 → nextPowTwo p n = .ok (pad n) :=
  ⟨_, fun _ h1 h2 => nextPowTwo_eq p h1 h2⟩

/-- Two signals meeting the hypotheses. -/
example : ∃ ref deg : AudioSignal ℝ, 2 ≤ ref.data.length ∧ 2 ≤ deg.data.length ∧ 9 ≤ max ref.data.length deg.data.length ∧
    max ref.data.length deg.data.length ≤ 2 ^ 62 ∧ deg.data = shift 2 ref.data :=
  ⟨⟨[0, 0, 0, 1, 0, 0, 0, 0, 0, 0], 16000⟩, ⟨[0, 0, 0, 0, 0, 1, 0, 0, 0, 0, 0, 0], 16000⟩, by decide, by decide, by decide,
    by decide, by simp [shift]⟩

end Visqol
