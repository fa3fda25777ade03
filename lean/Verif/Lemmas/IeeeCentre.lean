import Verif.Lemmas.IeeeGain

/-! # Floating point: the centre frequencies -/

set_option linter.unusedSectionVars false

namespace Visqol
open Ieee

variable {F : Type} [Flt F] [Ieee F]

theorem rnd_err20 (F : Type) [Flt F] [Ieee F] {x : ℝ} (hx : |x| ≤ 2 ^ 20) : ∃ y, rnd F x = .fin y ∧ |y - x| ≤ 1 / 2 ^ 31 := by
  obtain ⟨y, h1, h2⟩ := rnd_err F (B := 2 ^ 20) hx (by norm_num) (two_pow_mono (by norm_num))
  exact ⟨y, h1, h2.trans (by norm_num)⟩

/-- The upper frequency. -/
theorem high_ok {nb sr : Nat} (h1 : 1000 ≤ sr) (h2 : sr ≤ 1000000) :
    ∃ h : ℝ, Is (effectiveHighFreq sr (Flt.ofNat (builderMaxFreq nb sr) : F)) h ∧ 499 ≤ h ∧ h ≤ 500001 ∧ h ≤ 5001 / 10000 * sr := by
  have g1 : (1000 : ℝ) ≤ sr := by exact_mod_cast h1
  have g2 : (sr : ℝ) ≤ 1000000 := by exact_mod_cast h2
  have hsr : Is (Flt.ofNat sr : F) (sr : ℝ) := val_nat (h2.trans (by norm_num))
  obtain ⟨hv, hh, he⟩ := rnd_err20 F (x := (sr : ℝ) / 2) (by rw [abs_of_nonneg (by linarith)]; norm_num; linarith)
  have hhalf : Is ((Flt.ofNat sr : F) / 2.0) hv := (Is.div hsr val_2 (by norm_num)).trans hh
  have e1 := (abs_le.mp he).1
  have e2 := (abs_le.mp he).2
  norm_num at e1 e2
  have hM : builderMaxFreq nb sr ≤ 1000000 := by unfold builderMaxFreq; split <;> omega
  have hM5 : 500 ≤ builderMaxFreq nb sr := by unfold builderMaxFreq; split <;> omega
  have hMr : (500 : ℝ) ≤ (builderMaxFreq nb sr : ℝ) := by exact_mod_cast hM5
  have hMI : Is (Flt.ofNat (builderMaxFreq nb sr) : F) (builderMaxFreq nb sr : ℝ) := val_nat (hM.trans (by norm_num))
  unfold effectiveHighFreq
  by_cases hc : Flt.lt ((Flt.ofNat sr : F) / 2.0) (Flt.ofNat (builderMaxFreq nb sr)) = true
  · rw [if_pos hc]
    exact ⟨hv, hhalf, by linarith, by linarith, by linarith⟩
  · rw [if_neg hc]
    rw [lt_val, hhalf, hMI] at hc
    have : (builderMaxFreq nb sr : ℝ) ≤ hv := by simpa [Val.lt] using hc
    exact ⟨_, hMI, by linarith, by linarith, by linarith⟩

variable [Libm F]

theorem centre_tone {nb sr : Nat} (h1 : 1000 ≤ sr) (h2 : sr ≤ 1000000) (n1 : 1 ≤ nb) (n2 : nb ≤ 64) {f : F} (hf : f ∈ rawFreqs nb sr (50.0 : F)) :
    ∃ c, Tone sr f c (1 / sr) := by
  have g1 : (1000 : ℝ) ≤ sr := by exact_mod_cast h1
  have g2 : (sr : ℝ) ≤ 1000000 := by exact_mod_cast h2
  obtain ⟨hi, hiI, hi1, hi2, hi3⟩ := high_ok (F := F) (nb := nb) h1 h2
  unfold rawFreqs makeFilters uniformCenterFreqs at hf
  dsimp only at hf
  obtain ⟨i, hi', rfl⟩ := List.mem_map.mp hf
  have hin : i < nb := List.mem_range.mp hi'
  clear hf
  generalize effectiveHighFreq sr (Flt.ofNat (builderMaxFreq nb sr) : F) = high at hiI ⊢
  -- the product of the two constants
  have hprod : ∃ κ, Is (earQ * minBw : F) κ ∧ |κ - 228832903 / 1000000| ≤ 1 / 1000000 := by
    have hearQ : Nr (926449 / 100000) (earQ : F) 1 1 := lit_Nr (by norm_num) (by norm_num) (by norm_num)
    have hminBw : Nr (247 / 10) (minBw : F) 1 1 := lit_Nr (by norm_num) (by norm_num) (by norm_num)
    have s1 : Sc 100 (926449 / 100000 : ℝ) := by
      refine (show Sc 20 _ from ?_).mono (by norm_num)
      constructor <;> norm_num
    have s2 : Sc 100 (247 / 10 : ℝ) := by
      refine (show Sc 20 _ from ?_).mono (by norm_num)
      constructor <;> norm_num
    obtain ⟨y, hy, hye⟩ := Nr.mulA s1 s2 hearQ hminBw (X := 1) (Y := 1) (by norm_num) (by norm_num) rfl (mul_one _) (m := 4)
    have y1 := (abs_le.mp hye).1
    have y2 := (abs_le.mp hye).2
    refine ⟨y, hy, ?_⟩
    rw [abs_le]
    norm_num at y1 y2 ⊢
    constructor <;> linarith
  obtain ⟨κ, hκ, hκe⟩ := hprod
  have k1 := (abs_le.mp hκe).1
  have k2 := (abs_le.mp hκe).2
  generalize (earQ * minBw : F) = kk at hκ ⊢
  -- the two sums
  obtain ⟨D, hD, hDe⟩ := rnd_err20 F (x := hi + κ) (by rw [abs_of_nonneg (by linarith)]; norm_num; linarith)
  have hDI : Is (high + kk) D := (hiI.add hκ).trans hD
  have d1 := (abs_le.mp hDe).1
  have d2 := (abs_le.mp hDe).2
  have v50 : Is (50.0 : F) 50 := by
    have := val_litnat (F := F) (m := 500) (e := 1) (k := 50) (by norm_num) (by norm_num); exact_mod_cast this
  obtain ⟨L, hL, hLe⟩ := rnd_err20 F (x := 50 + κ) (by rw [abs_of_nonneg (by linarith)]; norm_num; linarith)
  have hLI : Is ((50.0 : F) + kk) L := (v50.add hκ).trans hL
  have l1 := (abs_le.mp hLe).1
  have l2 := (abs_le.mp hLe).2
  norm_num at k1 k2 d1 d2 l1 l2
  have h100 : (2 : ℝ) ^ 20 ≤ 2 ^ 100 := two_pow_mono (by norm_num)
  obtain ⟨lD, hlD, hlDe⟩ := Libm.ln_acc (high + kk) D hDI (by linarith) (le_trans (by norm_num; linarith) h100)
  obtain ⟨lL, hlL, hlLe⟩ := Libm.ln_acc (50.0 + kk) L hLI (by linarith) (le_trans (by norm_num; linarith) h100)
  clear h100
  have D0 : 0 < D := by linarith
  have L0 : 0 < L := by linarith
  -- the exact logarithm of the quotient
  have hlog : Real.log L - Real.log D = Real.log (L / D) := (Real.log_div L0.ne' D0.ne').symm
  have r0 : 0 < L / D := by positivity
  have hr1 : L / D ≤ 4 / 10 := by rw [div_le_iff₀ D0]; linarith
  have hr2 : 5 / 10000 ≤ L / D := by rw [le_div_iff₀ D0]; linarith
  have u1 : Real.log (L / D) ≤ -(9 / 10) := by
    have h9 := Real.exp_one_lt_d9
    have : Real.exp (9 / 10) ≤ 5 / 2 := by
      have e : Real.exp (9 / 10) ^ 10 = Real.exp 1 ^ 9 := by rw [← Real.exp_nat_mul, ← Real.exp_nat_mul]; norm_num
      have e2 : Real.exp 1 ^ 9 ≤ (5 / 2) ^ 10 := by
        calc Real.exp 1 ^ 9 ≤ (2.7182818286) ^ 9 := pow_le_pow_left₀ (Real.exp_pos _).le h9.le 9
          _ ≤ (5 / 2) ^ 10 := by norm_num
      rw [← e] at e2
      exact le_of_pow_le_pow_left₀ (by norm_num) (by norm_num) e2
    rw [Real.log_le_iff_le_exp r0, Real.exp_neg]
    refine hr1.trans ?_
    rw [le_inv_comm₀ (by norm_num) (Real.exp_pos _)]
    norm_num
    linarith
  have u2 : -8 ≤ Real.log (L / D) := by
    rw [Real.le_log_iff_exp_le r0, Real.exp_neg]
    refine le_trans ?_ hr2
    rw [inv_le_comm₀ (Real.exp_pos _) (by norm_num)]
    have e : Real.exp 8 = Real.exp 1 ^ 8 := by rw [← Real.exp_nat_mul]; norm_num
    have h2 : (2.7182818283 : ℝ) < Real.exp 1 := Real.exp_one_gt_d9
    rw [e]
    calc ((5 / 10000 : ℝ))⁻¹ ≤ (2.7182818283) ^ 8 := by norm_num
      _ ≤ Real.exp 1 ^ 8 := pow_le_pow_left₀ (by norm_num) h2.le 8
  have a1 := (abs_le.mp hlDe).1
  have a2 := (abs_le.mp hlDe).2
  have a3 := (abs_le.mp hlLe).1
  have a4 := (abs_le.mp hlLe).2
  norm_num at a1 a2 a3 a4
  set lam := Real.log (L / D) with hlam
  -- the exponent step
  obtain ⟨s, hs, hse⟩ := rnd_err20 F (x := -lD + lL) (by rw [abs_le]; norm_num; constructor <;> linarith)
  have hsI : Is (-(Flt.ln (high + kk)) + Flt.ln (50.0 + kk)) s := (Is.add (Is.neg hlD) hlL).trans hs
  have s1 := (abs_le.mp hse).1
  have s2 := (abs_le.mp hse).2
  norm_num at s1 s2
  have s3 : s ≤ lam + 1 / 400000 := by linarith
  have s4 : lam - 1 / 400000 ≤ s := by linarith
  have hnb : Is (Flt.ofNat nb : F) (nb : ℝ) := val_nat (n2.trans (by norm_num))
  have m1 : (1 : ℝ) ≤ nb := by exact_mod_cast n1
  have m2 : (nb : ℝ) ≤ 64 := by exact_mod_cast n2
  have nb0 : (0 : ℝ) < nb := by linarith
  have sdiv1 : |s / nb| ≤ 9 := by
    rw [abs_div, abs_of_pos nb0, div_le_iff₀ nb0, abs_of_nonpos (by linarith)]
    linarith
  obtain ⟨e, he, hee⟩ := rnd_err20 F (x := s / nb) (sdiv1.trans (by norm_num))
  have heI : Is ((-(Flt.ln (high + kk)) + Flt.ln (50.0 + kk)) / Flt.ofNat nb) e := (Is.div hsI hnb nb0.ne').trans he
  have e1 := (abs_le.mp hee).1
  have e2 := (abs_le.mp hee).2
  -- the exponent
  have hi53 : i ≤ 2 ^ 53 := by omega
  have hI1 : Is ((Flt.ofNat i : F) + 1.0) ((i : ℝ) + 1) := by
    have h1 : Is (Flt.ofNat i : F) (i : ℝ) := val_nat hi53
    have h2 := Is.add h1 (val_1 (F := F))
    have h3 := rnd_nat F (n := i + 1) (by omega)
    push_cast at h3
    exact h2.trans h3
  have i1 : (1 : ℝ) ≤ (i : ℝ) + 1 := by linarith [(Nat.cast_nonneg i : (0 : ℝ) ≤ i)]
  have i2 : (i : ℝ) + 1 ≤ nb := by exact_mod_cast hin
  have hq : ((i : ℝ) + 1) * (s / nb) = ((i : ℝ) + 1) / nb * s := by ring
  have w1 : ((i : ℝ) + 1) / nb ≤ 1 := by rw [div_le_one nb0]; exact i2
  have w2 : 1 / 64 ≤ ((i : ℝ) + 1) / nb := by rw [le_div_iff₀ nb0]; linarith
  have p1 : ((i : ℝ) + 1) / nb * s ≤ 1 / 64 * s := mul_le_mul_of_nonpos_right w2 (by linarith)
  have p2 : 1 * s ≤ ((i : ℝ) + 1) / nb * s := mul_le_mul_of_nonpos_right w1 (by linarith)
  have pe : |((i : ℝ) + 1) * e - ((i : ℝ) + 1) * (s / nb)| ≤ 64 / 2 ^ 31 := by
    rw [← mul_sub, abs_mul, abs_of_nonneg (by linarith : (0 : ℝ) ≤ (i : ℝ) + 1)]
    calc ((i : ℝ) + 1) * |e - s / nb| ≤ 64 * (1 / 2 ^ 31) := mul_le_mul (by linarith) hee (abs_nonneg _) (by norm_num)
      _ = 64 / 2 ^ 31 := by ring
  rw [hq] at pe
  have pe1 := (abs_le.mp pe).1
  have pe2 := (abs_le.mp pe).2
  norm_num at pe1 pe2
  obtain ⟨x, hx, hxe⟩ := rnd_err20 F (x := ((i : ℝ) + 1) * e) (by rw [abs_le]; norm_num; constructor <;> linarith)
  have hxI : Is (((Flt.ofNat i : F) + 1.0) * ((-(Flt.ln (high + kk)) + Flt.ln (50.0 + kk)) / Flt.ofNat nb)) x := (Is.mul hI1 heI).trans hx
  have x1 := (abs_le.mp hxe).1
  have x2 := (abs_le.mp hxe).2
  norm_num at x1 x2
  have xup : x ≤ -(14 / 1000) := by linarith
  have xlo : lam - 1 / 200000 ≤ x := by linarith
  -- its exponential
  obtain ⟨E, hE, hEe⟩ := Libm.exp_acc _ x hxI (by rw [abs_of_nonpos (by linarith)]; linarith)
  have eup : Real.exp x ≤ 987 / 1000 := by
    refine (Real.exp_le_exp.mpr xup).trans ?_
    rw [Real.exp_neg, inv_le_comm₀ (Real.exp_pos _) (by norm_num)]
    have := Real.add_one_le_exp (14 / 1000 : ℝ)
    norm_num at this ⊢
    linarith
  have elo : L / D * (1 - 1 / 200000) ≤ Real.exp x := by
    calc L / D * (1 - 1 / 200000) ≤ L / D * Real.exp (-(1 / 200000)) := by
          apply mul_le_mul_of_nonneg_left _ r0.le
          have := Real.add_one_le_exp (-(1 / 200000) : ℝ)
          linarith
      _ = Real.exp (lam - 1 / 200000) := by rw [sub_eq_add_neg, Real.exp_add, hlam, Real.exp_log r0]
      _ ≤ Real.exp x := Real.exp_le_exp.mpr xlo
  have ep := Real.exp_pos x
  have E1 := (abs_le.mp hEe).1
  have E2 := (abs_le.mp hEe).2
  norm_num at E1 E2
  have Eup : E ≤ 9871 / 10000 := by linarith
  have Elo : L / D * (1 - 1 / 100000) ≤ E := by linarith
  -- times D
  have t1 : E * D ≤ 9871 / 10000 * D := mul_le_mul_of_nonneg_right Eup D0.le
  have t2 : L * (1 - 1 / 100000) ≤ E * D := by
    have := mul_le_mul_of_nonneg_right Elo D0.le
    have e : L / D * (1 - 1 / 100000) * D = L * (1 - 1 / 100000) := by field_simp
    rw [e] at this
    exact this
  obtain ⟨P, hP, hPe⟩ := rnd_err20 F (x := E * D) (by rw [abs_of_nonneg (by linarith)]; norm_num; linarith)
  have hPI : Is (Flt.exp (((Flt.ofNat i : F) + 1.0) * ((-(Flt.ln (high + kk)) + Flt.ln (50.0 + kk)) / Flt.ofNat nb)) * (high + kk)) P :=
    (Is.mul (show Is _ E from hE) hDI).trans hP
  have P1 := (abs_le.mp hPe).1
  have P2 := (abs_le.mp hPe).2
  norm_num at P1 P2
  obtain ⟨c, hc, hce⟩ := rnd_err20 F (x := -κ + P) (by rw [abs_le]; norm_num; constructor <;> linarith)
  have hcI := (Is.add hκ.neg hPI).trans hc
  have c1 := (abs_le.mp hce).1
  have c2 := (abs_le.mp hce).2
  norm_num at c1 c2
  refine ⟨c, ⟨hcI, by linarith, ?_, rfl, h1, h2⟩⟩
  rw [mul_one_div, div_le_iff₀ (by linarith)]
  linarith

theorem tameBank {nb sr : Nat} (h1 : 1000 ≤ sr) (h2 : sr ≤ 1000000) (n1 : 1 ≤ nb) (n2 : nb ≤ 64) : TameBank nb sr (50.0 : F) := by
  intro b hb
  unfold rowCoeffs makeFilters at hb
  rw [List.mem_reverse] at hb
  obtain ⟨f, hf, rfl⟩ := List.mem_map.mp hb
  obtain ⟨c, hc⟩ := centre_tone (F := F) h1 h2 n1 n2 hf
  exact hc.tame

theorem freqsOk {nb sr : Nat} (h1 : 1000 ≤ sr) (h2 : sr ≤ 1000000) (n1 : 1 ≤ nb) (n2 : nb ≤ 64) : FreqsOk nb sr (50.0 : F) := by
  intro f hf
  obtain ⟨c, hc⟩ := centre_tone (F := F) h1 h2 n1 n2 hf
  rw [show val f = .fin c from hc.val]
  exact fun h => by cases h

end Visqol
