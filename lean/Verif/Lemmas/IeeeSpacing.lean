import Verif.Lemmas.IeeeCentre
import Verif.Props.Bands

/-! # Floating point: the centre frequencies are close to the exact ones -/

set_option linter.unusedSectionVars false

namespace Visqol
open Ieee

variable {F : Type} [Flt F] [Ieee F]

/-- The upper frequency is computed exactly. -/
theorem high_exact {nb sr : Nat} (h2 : sr ≤ 1000000) :
    Is (effectiveHighFreq sr (Flt.ofNat (builderMaxFreq nb sr) : F)) (upperLimit nb sr) := by
  have hsr : Is (Flt.ofNat sr : F) (sr : ℝ) := val_nat (h2.trans (by norm_num))
  have hhalf : Is ((Flt.ofNat sr : F) / 2.0) ((sr : ℝ) / 2) := by
    have e := rnd_dyadic (F := F) (sr : ℤ) (-1) (by rw [abs_of_nonneg (by omega)]; exact_mod_cast h2.trans (by norm_num)) (by norm_num) (by norm_num)
    refine (Is.div hsr val_2 (by norm_num)).trans ?_
    have e2 : ((sr : ℤ) : ℝ) * (2 : ℝ) ^ (-1 : ℤ) = (sr : ℝ) / 2 := by
      rw [zpow_neg_one]; push_cast; ring
    rw [e2] at e
    exact e
  have hM : builderMaxFreq nb sr ≤ 1000000 := by unfold builderMaxFreq; split <;> omega
  have hMI : Is (Flt.ofNat (builderMaxFreq nb sr) : F) (builderMaxFreq nb sr : ℝ) := val_nat (hM.trans (by norm_num))
  unfold effectiveHighFreq upperLimit
  rw [hhalf.lt hMI]
  unfold builderMaxFreq at hMI ⊢
  by_cases hc : (sr : ℝ) / 2 < ((if nb = 21 then 8000 else sr / 2 : ℕ) : ℝ)
  · rw [if_pos (by simpa using hc), min_eq_left hc.le]; exact hhalf
  · rw [if_neg (by simpa using hc), min_eq_right (not_lt.mp hc)]; exact hMI

theorem upperLimit_size {nb sr : Nat} (h1 : 1000 ≤ sr) (h2 : sr ≤ 1000000) : 500 ≤ upperLimit nb sr ∧ upperLimit nb sr ≤ 500000 := by
  have g1 : (1000 : ℝ) ≤ sr := by exact_mod_cast h1
  have g2 : (sr : ℝ) ≤ 1000000 := by exact_mod_cast h2
  unfold upperLimit
  refine ⟨le_min (by linarith) ?_, (min_le_left _ _).trans (by linarith)⟩
  have : 500 ≤ (if nb = 21 then 8000 else sr / 2 : ℕ) := by split <;> omega
  exact_mod_cast this

variable [Libm F]

theorem Nr.ln {s k : ℝ} {a : F} (h : Nr s a 1 k) (h1 : 2 ≤ s) (h2 : s ≤ 2 ^ 90) (hk0 : 0 ≤ k) (hk : k ≤ 1000) :
    Nr 1 (Flt.ln a) (Real.log s) (2 * k + 1) := by
  obtain ⟨y, hy, he⟩ := h
  rw [mul_one] at he
  have s0 : 0 < s := by linarith
  have hr : s * (k / 2 ^ 40) ≤ s * (1 / 4) := mul_le_mul_of_nonneg_left (by norm_num; linarith) s0.le
  have y1 := (abs_le.mp (he.trans hr)).1
  have y2 := (abs_le.mp (he.trans hr)).2
  have hbig : y ≤ 2 ^ 100 := by
    have : (2 : ℝ) ^ 100 = 1024 * 2 ^ 90 := by rw [show (100 : ℕ) = 10 + 90 by norm_num, pow_add]; norm_num
    rw [this]; linarith
  have y0 : 0 < y := by linarith
  obtain ⟨z, hz, hze⟩ := Libm.ln_acc a y hy (by linarith) hbig
  refine ⟨z, hz, ?_⟩
  rw [one_mul, one_mul]
  have hq : |y / s - 1| ≤ k / 2 ^ 40 := by
    rw [show y / s - 1 = (y - s) / s by field_simp, abs_div, abs_of_pos s0, div_le_iff₀ s0]
    linarith
  have hk2 : k / 2 ^ 40 ≤ 1 / 4 := by norm_num; linarith
  generalize hK : k / 2 ^ 40 = K at hq hk2
  have q1 := (abs_le.mp hq).1
  have q2 := (abs_le.mp hq).2
  have q0 : 0 < y / s := by positivity
  have hlog : |Real.log y - Real.log s| ≤ 2 * K := by
    rw [← Real.log_div y0.ne' s0.ne', abs_le]
    constructor
    · have := Real.one_sub_inv_le_log_of_pos q0
      have h3 : (y / s)⁻¹ ≤ 1 + 2 * K := by
        rw [inv_le_comm₀ q0 (by linarith)]
        refine le_trans ?_ (by linarith : 1 - K ≤ y / s)
        rw [inv_le_comm₀ (by linarith) (by linarith), inv_le_iff_one_le_mul₀ (by linarith)]
        nlinarith
      linarith
    · have := Real.log_le_sub_one_of_pos q0
      linarith
  have := abs_sub_le z (Real.log y) (Real.log s)
  have e : (2 * k + 1) / 2 ^ 40 = 2 * K + 1 / 2 ^ 40 := by rw [← hK]; ring
  rw [e]
  linarith

/-- The exact centre frequency number `i` of `nb`, counted from the highest. -/
noncomputable def exactCentre (nb sr i : ℕ) : ℝ :=
  -(9.26449 * 24.7) + Real.exp ((i + 1) * ((Real.log (50 + 9.26449 * 24.7) - Real.log (upperLimit nb sr + 9.26449 * 24.7)) / nb)) *
    (upperLimit nb sr + 9.26449 * 24.7)

theorem centre_near {nb sr i : Nat} (h1 : 1000 ≤ sr) (h2 : sr ≤ 1000000) (n2 : nb ≤ 64) (hin : i < nb) :
    ∃ f : F, (rawFreqs nb sr (50.0 : F))[i]? = some f ∧ ∃ c, Is f c ∧ |c - exactCentre nb sr i| ≤ upperLimit nb sr / 2 ^ 30 := by
  obtain ⟨U1, U2⟩ := upperLimit_size (nb := nb) h1 h2
  have hiI := high_exact (F := F) (nb := nb) h2
  unfold rawFreqs makeFilters uniformCenterFreqs exactCentre
  dsimp only
  rw [List.getElem?_map, List.getElem?_range hin, Option.map_some]
  refine ⟨_, rfl, ?_⟩
  generalize effectiveHighFreq sr (Flt.ofNat (builderMaxFreq nb sr) : F) = high at hiI ⊢
  generalize upperLimit nb sr = U at *
  have kk0 : ∃ K : ℝ, (9.26449 * 24.7 : ℝ) = K ∧ K = 228832903 / 1000000 := ⟨_, rfl, by norm_num⟩
  obtain ⟨K, hK, hKv⟩ := kk0
  have hkk : Nr K (earQ * minBw : F) 1 4 := by
    have hearQ : Nr (926449 / 100000) (earQ : F) 1 1 := lit_Nr (by norm_num) (by norm_num) (by norm_num)
    have hminBw : Nr (247 / 10) (minBw : F) 1 1 := lit_Nr (by norm_num) (by norm_num) (by norm_num)
    have s1 : Sc 100 (926449 / 100000 : ℝ) := by
      refine (show Sc 20 _ from ?_).mono (by norm_num)
      constructor <;> norm_num
    have s2 : Sc 100 (247 / 10 : ℝ) := by
      refine (show Sc 20 _ from ?_).mono (by norm_num)
      constructor <;> norm_num
    exact Nr.mulA s1 s2 hearQ hminBw (X := 1) (Y := 1) (by norm_num) (by norm_num) (by rw [hKv]; norm_num) (mul_one _) (m := 4)
  rw [hK]
  clear hK
  generalize (earQ * minBw : F) = kk at hkk ⊢
  have K1 : 228 ≤ K := by rw [hKv]; norm_num
  have K2 : K ≤ 229 := by rw [hKv]; norm_num
  clear hKv
  set H := U + K with hH
  have H0 : 0 < H := by linarith
  have scH : Sc 100 H := by
    refine (show Sc 20 _ from ?_).mono (by norm_num)
    constructor <;> norm_num <;> linarith
  set L := 50 + K with hL
  have L0 : 0 < L := by linarith
  have scL : Sc 100 L := by
    refine (show Sc 20 _ from ?_).mono (by norm_num)
    constructor <;> norm_num <;> linarith
  -- the two sums
  have hD : Nr H (high + kk) 1 5 := by
    have := Nr.add (scH.mono (by norm_num)) (Nr.exact' H0 hiI) (hkk.rescale (c := 1) H0 (by norm_num) (by linarith))
      (by rw [mul_one, ← add_div, ← hH, div_self H0.ne']; norm_num) (by norm_num)
    rw [mul_one, ← add_div, ← hH, div_self H0.ne'] at this
    exact this.mono H0.le (by norm_num)
  have v50 : Is (50.0 : F) 50 := by
    have := val_litnat (F := F) (m := 500) (e := 1) (k := 50) (by norm_num) (by norm_num); exact_mod_cast this
  have hLn : Nr L (50.0 + kk) 1 5 := by
    have := Nr.add (scL.mono (by norm_num)) (Nr.exact' L0 v50) (hkk.rescale (c := 1) L0 (by norm_num) (by linarith))
      (by rw [mul_one, ← add_div, ← hL, div_self L0.ne']; norm_num) (by norm_num)
    rw [mul_one, ← add_div, ← hL, div_self L0.ne'] at this
    exact this.mono L0.le (by norm_num)
  have big : ∀ x : ℝ, x ≤ 2 ^ 20 → x ≤ 2 ^ 90 := fun x h => h.trans (two_pow_mono (by norm_num))
  have lD := hD.ln (by linarith) (big _ (by norm_num; linarith)) (by norm_num) (by norm_num)
  have lL := hLn.ln (by linarith) (big _ (by norm_num; linarith)) (by norm_num) (by norm_num)
  clear big
  -- size of the logarithms
  have sz : ∀ x : ℝ, 1 ≤ x → x ≤ 524288 → 0 ≤ Real.log x ∧ Real.log x ≤ 19 := by
    intro x x1 x2
    refine ⟨Real.log_nonneg x1, ?_⟩
    have e : Real.log (2 ^ 19 : ℝ) = 19 * Real.log 2 := by rw [Real.log_pow]; norm_num
    have := Real.log_le_log (by linarith : 0 < x) (show x ≤ 2 ^ 19 by norm_num; linarith)
    have := Real.log_two_lt_d9
    linarith
  have z1 := sz H (by linarith) (by linarith)
  have z2 := sz L (by linarith) (by linarith)
  have hneg : Real.log L ≤ Real.log H := Real.log_le_log L0 (by linarith)
  generalize Real.log H = lh at *
  generalize Real.log L = ll at *
  have one7 : Sc 700 (1 : ℝ) := Sc.one.mono (by norm_num)
  have one1 : Sc 100 (1 : ℝ) := Sc.one.mono (by norm_num)
  have hs : Nr 1 (-(Flt.ln (high + kk)) + Flt.ln (50.0 + kk)) (ll - lh) 23 := by
    have := Nr.add one7 lD.neg lL (by rw [abs_le]; constructor <;> linarith) (by norm_num)
    rw [neg_add_eq_sub] at this
    exact this.mono (by norm_num) (by norm_num)
  have n1 : 1 ≤ nb := by omega
  have m1 : (1 : ℝ) ≤ nb := by exact_mod_cast n1
  have m2 : (nb : ℝ) ≤ 64 := by exact_mod_cast n2
  have nb0 : (0 : ℝ) < nb := by linarith
  have scn : Sc 10 (nb : ℝ) := by constructor <;> norm_num <;> linarith
  have hnb : Nr nb (Flt.ofNat nb : F) 1 0 := by
    have h : Is (Flt.ofNat nb : F) (nb : ℝ) := val_nat (n2.trans (by norm_num))
    have := Nr.exact' nb0 h
    rwa [div_self nb0.ne'] at this
  have hz : |ll - lh| ≤ 19 := by rw [abs_le]; constructor <;> linarith
  have he : Nr (1 / nb) ((-(Flt.ln (high + kk)) + Flt.ln (50.0 + kk)) / Flt.ofNat nb) (ll - lh) 93 := by
    have := Nr.div (by norm_num) nb0 (((Sc.one).div scn).mono (by norm_num)) hs hnb hz (by norm_num) (by norm_num) (by norm_num) (by norm_num)
      (by norm_num)
    rw [div_one] at this
    exact this.mono (by positivity) (by norm_num)
  have hi53 : i ≤ 2 ^ 53 := by omega
  have i1 : (1 : ℝ) ≤ (i : ℝ) + 1 := by linarith [(Nat.cast_nonneg i : (0 : ℝ) ≤ i)]
  have i2 : (i : ℝ) + 1 ≤ nb := by exact_mod_cast hin
  have i0 : (0 : ℝ) < (i : ℝ) + 1 := by linarith
  have hI : Nr ((i : ℝ) + 1) ((Flt.ofNat i : F) + 1.0) 1 0 := by
    have hI1 : Is ((Flt.ofNat i : F) + 1.0) ((i : ℝ) + 1) := by
      have h1 : Is (Flt.ofNat i : F) (i : ℝ) := val_nat hi53
      have h2 := Is.add h1 (val_1 (F := F))
      have h3 := rnd_nat F (n := i + 1) (by omega)
      push_cast at h3
      exact h2.trans h3
    have := Nr.exact' i0 hI1
    rwa [div_self i0.ne'] at this
  have sci : Sc 10 ((i : ℝ) + 1) := by constructor <;> norm_num <;> linarith
  have hx : Nr 1 (((Flt.ofNat i : F) + 1.0) * ((-(Flt.ln (high + kk)) + Flt.ln (50.0 + kk)) / Flt.ofNat nb)) ((i + 1) * ((ll - lh) / nb)) 95 := by
    have := Nr.mulA (sci.mono (by norm_num)) ((Sc.one.div scn).mono (by norm_num)) hI he (X := 1) (Y := 19) (by norm_num) hz rfl (one_mul _) (m := 95)
    have := this.rescale (t := 1) (c := 1) (by norm_num) (by norm_num) (by rw [mul_one_div, mul_one, div_le_one nb0]; exact i2)
    rw [one_mul, div_one, show ((i : ℝ) + 1) * (1 / nb) * (ll - lh) = (i + 1) * ((ll - lh) / nb) by ring] at this
    exact this
  -- the exponential
  have xneg : ((i : ℝ) + 1) * ((ll - lh) / nb) ≤ 0 := mul_nonpos_of_nonneg_of_nonpos i0.le (div_nonpos_of_nonpos_of_nonneg (by linarith) nb0.le)
  have xbig : |((i : ℝ) + 1) * ((ll - lh) / nb)| ≤ 400 := by
    rw [show ((i : ℝ) + 1) * ((ll - lh) / nb) = ((i : ℝ) + 1) / nb * (ll - lh) by ring, abs_mul, abs_of_pos (div_pos i0 nb0)]
    have w1 : ((i : ℝ) + 1) / nb ≤ 1 := by rw [div_le_one nb0]; exact i2
    calc ((i : ℝ) + 1) / nb * |ll - lh| ≤ 1 * 19 := mul_le_mul w1 hz (abs_nonneg _) (by norm_num)
      _ ≤ 400 := by norm_num
  have hE := hx.exp xbig (Real.exp_le_one_iff.mpr xneg) (by norm_num) (by norm_num)
  have e1 : |Real.exp (((i : ℝ) + 1) * ((ll - lh) / nb))| ≤ 1 := by
    rw [abs_of_pos (Real.exp_pos _)]; exact Real.exp_le_one_iff.mpr xneg
  generalize Real.exp (((i : ℝ) + 1) * ((ll - lh) / nb)) = E at *
  have hP := Nr.mulA one1 scH hE hD e1 (Y := 1) (by norm_num) (one_mul H) (mul_one E) (m := 200)
  have hkH : K / H ≤ 1 := by rw [div_le_one H0]; linarith
  have hkH0 : 0 ≤ K / H := by positivity
  have hc := Nr.add (scH.mono (by norm_num)) (hkk.rescale (c := 1) H0 (by norm_num) (by linarith)).neg hP
    (by rw [mul_one, abs_le]; have := abs_le.mp e1; constructor <;> linarith [this.1, this.2]) (by norm_num)
  obtain ⟨c, hcI, hce⟩ := hc
  refine ⟨c, hcI, ?_⟩
  have e2 : H * (-(K * 1 / H) + E) = -K + E * H := by field_simp
  rw [e2] at hce
  refine hce.trans ?_
  norm_num
  linarith

end Visqol
