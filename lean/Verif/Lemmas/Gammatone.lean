import Verif.Props.Filter
import Verif.Spec.Gammatone

/-! # Gammatone coefficients in closed form, over the real numbers -/

namespace Visqol

theorem earQ_real : (earQ : ℝ) = 9.26449 := by
  unfold earQ; exact (real_sci 926449 5).trans (by norm_num)
theorem minBw_real : (minBw : ℝ) = 24.7 := by
  unfold minBw; exact (real_sci 247 1).trans (by norm_num)

theorem bandwidthTerm_spec {cf : ℝ} (h : 0 < cf) :
    bandwidthTerm (Cpx.ofRe cf) = ⟨2 * Real.pi * (1.019 * Spec.erb cf), 0⟩ := by
  rw [bandwidthTerm_real h, earQ_real, minBw_real]
  unfold Spec.erb
  simp only [real_sci]
  congr 1
  norm_num
  ring

theorem two_pow_32 : (2 : ℝ) ^ (3 / 2 : ℝ) = 2 ^ (1.5 : ℝ) := by norm_num

theorem bandCoeffs_spec {sr : ℕ} {cf : ℝ} (h : 0 < cf) :
    let c := bandCoeffs sr cf
    c.a0 = 1 / sr ∧ c.a2 = 0 ∧ c.b0 = 1 ∧
    c.b1 = -2 * Spec.poleRadius sr cf * Real.cos (Spec.radians sr cf) ∧ c.b2 = Spec.poleRadius sr cf ^ 2 ∧
    c.a11 = -(1 / sr * Spec.zeroAt sr cf (Real.sqrt (3 + 2 ^ (1.5 : ℝ)))) ∧
    c.a12 = -(1 / sr * Spec.zeroAt sr cf (-Real.sqrt (3 + 2 ^ (1.5 : ℝ)))) ∧
    c.a13 = -(1 / sr * Spec.zeroAt sr cf (Real.sqrt (3 - 2 ^ (1.5 : ℝ)))) ∧
    c.a14 = -(1 / sr * Spec.zeroAt sr cf (-Real.sqrt (3 - 2 ^ (1.5 : ℝ)))) := by
  have h3 : (@OfScientific.ofScientific ℝ Flt.toOfScientific 30 true 1) = 3 := by rw [real_sci]; norm_num
  have h15 : (@OfScientific.ofScientific ℝ Flt.toOfScientific 15 true 1) = 1.5 := by
    exact (real_sci 15 1).trans (by norm_num)
  have hr : ∀ B : ℝ, Real.exp (-(B / sr)) = (Real.exp (B * (1 / sr)))⁻¹ := by
    intro B; rw [Real.exp_neg, mul_one_div]
  have ht : cf * 2 * Real.pi * (1 / (sr : ℝ)) = Spec.radians sr cf := by unfold Spec.radians; ring
  intro c
  have hc : c = bandCoeffs sr cf := rfl
  clear_value c
  unfold bandCoeffs at hc
  simp only [real_pi, real_ofNat, real_lit1] at hc
  rw [bandwidthTerm_spec h] at hc
  unfold Spec.zeroAt Spec.poleRadius
  generalize 2 * Real.pi * (1.019 * Spec.erb cf) = B at *
  rw [hr]
  have hp := Real.exp_pos (B * (1 / sr))
  subst hc
  simp only [Cpx.ofRe, Cpx.smul, Cpx.exp, Cpx.fromPolar, Cpx.cos, Cpx.sin, Cpx.div, Cpx.add, Cpx.sub, Cpx.neg, Cpx.sdiv, real_exp, real_cos, real_sin,
    real_cosh, real_sinh, real_sqrt, real_powf, real_lit0, real_lit2, zero_mul, Real.cos_zero, Real.sin_zero, Real.cosh_zero,
    Real.sinh_zero, mul_zero, mul_one, add_zero, ht, h3, h15, ← sub_eq_add_neg]
  generalize Real.sqrt (3 + 2 ^ (1.5 : ℝ)) = s2
  generalize Real.sqrt (3 - 2 ^ (1.5 : ℝ)) = s1
  have he : Real.exp (B * (1 / ↑sr) * -2) = ((Real.exp (B * (1 / sr)))⁻¹) ^ 2 := by
    rw [← Real.exp_neg, ← Real.exp_nat_mul]; congr 1; push_cast; ring
  rw [he]
  generalize Real.exp (B * (1 / sr)) = E at *
  generalize (1 / (sr : ℝ)) = T at *
  refine ⟨trivial, trivial, trivial, ?_, ?_, ?_, ?_, ?_, ?_⟩ <;> field_simp <;> ring


section toC
theorem toC_add (a b : Cpx ℝ) : (Cpx.add a b).toC = a.toC + b.toC := rfl
theorem toC_sub (a b : Cpx ℝ) : (Cpx.sub a b).toC = a.toC - b.toC := rfl
theorem toC_neg (a : Cpx ℝ) : (Cpx.neg a).toC = -a.toC := rfl
theorem toC_prod (a b : Cpx ℝ) : (Cpx.mul a b).toC = a.toC * b.toC := by
  apply Complex.ext <;> simp [Cpx.mul, Cpx.toC, Complex.mul_re, Complex.mul_im]
theorem toC_smul (a : Cpx ℝ) (s : ℝ) : (Cpx.smul a s).toC = a.toC * s := by
  apply Complex.ext <;> simp [Cpx.smul, Cpx.toC, Complex.mul_re, Complex.mul_im]
theorem toC_sadd (a : Cpx ℝ) (s : ℝ) : (Cpx.sadd a s).toC = a.toC + s := by
  apply Complex.ext <;> simp [Cpx.sadd, Cpx.toC]
theorem toC_ofRe (x : ℝ) : (Cpx.ofRe x).toC = x := by
  apply Complex.ext <;> simp [Cpx.ofRe, Cpx.toC]
theorem toC_mk (x : ℝ) : (⟨x, 0⟩ : Cpx ℝ).toC = x := by
  apply Complex.ext <;> simp [Cpx.toC]
theorem toC_div (a b : Cpx ℝ) : (Cpx.div a b).toC = a.toC / b.toC := by
  apply Complex.ext <;> simp [Cpx.div, Cpx.toC, Complex.div_re, Complex.div_im, Complex.normSq_apply] <;> ring
theorem toC_rdiv (s : ℝ) (b : Cpx ℝ) : (Cpx.rdiv s b).toC = s / b.toC := by
  apply Complex.ext <;> simp [Cpx.rdiv, Cpx.toC, Complex.div_re, Complex.div_im, Complex.normSq_apply] <;> ring
theorem toC_exp (a : Cpx ℝ) : (Cpx.exp a).toC = Complex.exp a.toC := by
  apply Complex.ext <;> simp [Cpx.exp, Cpx.fromPolar, Cpx.toC, Complex.exp_re, Complex.exp_im]
theorem norm_toC (a : Cpx ℝ) : Cpx.norm a = ‖a.toC‖ := by
  rw [Complex.norm_eq_sqrt_sq_add_sq]; rfl
theorem norm_powf4 (a : Cpx ℝ) : ‖(Cpx.powf a 4).toC‖ = ‖a.toC‖ ^ 4 := by
  unfold Cpx.powf
  simp only [real_eq, real_lit0]
  rw [if_neg (by norm_num), norm_toC]
  rw [← norm_toC (Cpx.fromPolar _ _), Cpx.norm, Cpx.fromPolar]
  simp only [real_hypot, real_cos, real_sin, real_powf]
  rw [mul_pow, mul_pow, ← mul_add, Real.cos_sq_add_sin_sq, mul_one, Real.sqrt_sq (by positivity)]
  norm_cast
theorem toC_cos (x : ℝ) : (Cpx.cos (⟨x, 0⟩ : Cpx ℝ)).toC = (Real.cos x : ℝ) := by
  rw [← toC_mk]; simp [Cpx.cos]
theorem toC_sin (x : ℝ) : (Cpx.sin (⟨x, 0⟩ : Cpx ℝ)).toC = (Real.sin x : ℝ) := by
  rw [← toC_mk]; simp [Cpx.sin]
end toC

/-- The gain is the modulus of the product of the unscaled sections at the centre frequency. -/
theorem bandCoeffs_gain {sr : ℕ} {cf : ℝ} (h : 0 < cf) :
    let c := bandCoeffs sr cf
    let w := Complex.exp (Spec.radians sr cf * Complex.I)
    c.gain = ‖(c.a0 * w + c.a11) * (c.a0 * w + c.a12) * (c.a0 * w + c.a13) * (c.a0 * w + c.a14)‖ / ‖w ^ 2 + c.b1 * w + c.b2‖ ^ 4 := by
  obtain ⟨e0, e2, f0, f1, f2, g1, g2, g3, g4⟩ := bandCoeffs_spec (sr := sr) h
  intro c w
  change c.a0 = _ at e0
  change c.b1 = _ at f1
  change c.b2 = _ at f2
  change c.a11 = _ at g1
  change c.a12 = _ at g2
  change c.a13 = _ at g3
  change c.a14 = _ at g4
  rw [e0, f1, f2, g1, g2, g3, g4]
  have hc : c.gain = (bandCoeffs sr cf).gain := rfl
  rw [hc]
  clear_value c
  unfold bandCoeffs
  simp only [real_pi, real_ofNat, real_lit1]
  rw [bandwidthTerm_spec h]
  have h3 : (@OfScientific.ofScientific ℝ Flt.toOfScientific 30 true 1) = 3 := by rw [real_sci]; norm_num
  have h4 : (@OfScientific.ofScientific ℝ Flt.toOfScientific 40 true 1) = 4 := by rw [real_sci]; norm_num
  have ht : (cf : ℝ) * 2 * Real.pi * (1 / (sr : ℝ)) = Spec.radians sr cf := by unfold Spec.radians; ring
  simp only [norm_toC, toC_div, h3, h4, real_lit2]
  rw [norm_div, norm_powf4]
  simp only [toC_prod, toC_add, toC_sub, toC_neg, toC_smul, toC_sadd, toC_exp, toC_rdiv, toC_div]
  have hT : ((((Cpx.ofRe cf).smul 2).smul Real.pi).smul (1 / (sr : ℝ))) = ⟨Spec.radians sr cf, 0⟩ := by
    rw [← ht]; simp [Cpx.ofRe, Cpx.smul]
  rw [hT, toC_cos, toC_sin]
  have hI : (Cpx.toC ⟨0, 1⟩ : ℂ) = Complex.I := rfl
  simp only [real_lit0, toC_mk, toC_ofRe, hI, real_powf, real_sqrt]
  have hw2 : Complex.exp (Complex.I * ((4 : ℝ) : ℂ) * cf * (Real.pi : ℂ) * ((1 / sr : ℝ) : ℂ)) = w ^ 2 := by
    rw [← Complex.exp_nat_mul]
    congr 1
    unfold Spec.radians
    push_cast
    ring
  have hrw : Complex.exp (-(((2 * Real.pi * (1.019 * Spec.erb cf) : ℝ) : ℂ) * ((1 / sr : ℝ) : ℂ)) +
      Complex.I * ((2 : ℝ) : ℂ) * cf * (Real.pi : ℂ) * ((1 / sr : ℝ) : ℂ)) = (Spec.poleRadius sr cf : ℂ) * w := by
    unfold Spec.poleRadius
    rw [Complex.ofReal_exp, ← Complex.exp_add]
    congr 1
    unfold Spec.radians
    push_cast
    ring
  rw [hw2, hrw]
  have hr1 : ∀ z : ℂ, z / Complex.exp (((2 * Real.pi * (1.019 * Spec.erb cf) : ℝ) : ℂ) * ((1 / sr : ℝ) : ℂ)) =
      z * (Spec.poleRadius sr cf : ℂ) := by
    intro z
    rw [div_eq_mul_inv, ← Complex.exp_neg]
    unfold Spec.poleRadius
    rw [Complex.ofReal_exp]
    congr 2
    push_cast
    ring
  have hr2 : ∀ z : ℂ, z / Complex.exp (((2 * Real.pi * (1.019 * Spec.erb cf) : ℝ) : ℂ) * ((2 : ℝ) : ℂ) * ((1 / sr : ℝ) : ℂ)) =
      z * (Spec.poleRadius sr cf : ℂ) ^ 2 := by
    intro z
    rw [div_eq_mul_inv, ← Complex.exp_neg]
    unfold Spec.poleRadius
    rw [Complex.ofReal_exp, ← Complex.exp_nat_mul]
    congr 2
    push_cast
    ring
  have hw : ‖w‖ = 1 := Complex.norm_exp_ofReal_mul_I _
  have hcos : w ^ 2 + 1 = 2 * (Real.cos (Spec.radians sr cf) : ℂ) * w := by
    have e : w = Complex.cos (Spec.radians sr cf) + Complex.sin (Spec.radians sr cf) * Complex.I := Complex.exp_mul_I _
    rw [e, Complex.ofReal_cos]
    linear_combination Complex.sin (Spec.radians sr cf) ^ 2 * Complex.I_sq - Complex.sin_sq_add_cos_sq (Spec.radians sr cf : ℂ)
  rw [hr1, hr2, Complex.ofReal_one, hcos, show (3 / 2 : ℝ) = 1.5 by norm_num]
  unfold Spec.zeroAt
  generalize Real.sqrt (3 + 2 ^ (1.5 : ℝ)) = s2
  generalize Real.sqrt (3 - 2 ^ (1.5 : ℝ)) = s1
  generalize Spec.poleRadius sr cf = r
  generalize Real.cos (Spec.radians sr cf) = x
  generalize Real.sin (Spec.radians sr cf) = y
  generalize (1 / (sr : ℝ)) = T
  clear_value w
  have hn : ∀ P Q : ℂ, P = 16 * w ^ 4 * Q → ‖P‖ = 16 * ‖Q‖ := by
    rintro P Q rfl
    simp [hw]
  have hd : ∀ P Q : ℂ, P = -2 * Q → ‖P‖ ^ 4 = 16 * ‖Q‖ ^ 4 := by
    rintro P Q rfl
    rw [norm_mul, mul_pow]
    norm_num
  rw [hn _ ((T * w + ((-(T * (r * (x + s2 * y))) : ℝ) : ℂ)) * (T * w + ((-(T * (r * (x + -s2 * y))) : ℝ) : ℂ)) *
      (T * w + ((-(T * (r * (x + s1 * y))) : ℝ) : ℂ)) * (T * w + ((-(T * (r * (x + -s1 * y))) : ℝ) : ℂ))) (by push_cast; ring),
    hd _ (w ^ 2 + ((-2 * r * x : ℝ) : ℂ) * w + ((r ^ 2 : ℝ) : ℂ)) (by push_cast; ring), mul_div_mul_left _ _ (by norm_num)]

end Visqol
