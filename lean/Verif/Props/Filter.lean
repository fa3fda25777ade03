import Verif.Lemmas.Spectro
import Verif.Lemmas.Shape
import Verif.Spec.Filter
import Verif.Num.Dft
import Mathlib.Analysis.Complex.Norm
import Mathlib.Analysis.SpecialFunctions.Complex.Log
import Mathlib.Analysis.Complex.Polynomial.Basic

/-! # Filtering: C44, C45, C22 -/

set_option linter.unusedSectionVars false

namespace Visqol

section
variable {F : Type} [Flt F]

/-- C44, length. -/
theorem C44_length (num den : Taps F) : ∀ (x : List F) (z : F × F), (filterSignal num den x z).1.length = x.length
  | [], _ => rfl
  | x :: xs, z => by
    simp only [filterSignal, List.length_cons]
    rw [C44_length num den xs]

/-- C44, chunks: filtering two pieces one after the other, carrying the conditions, is filtering their concatenation. -/
theorem C44_chunks (num den : Taps F) : ∀ (x y : List F) (z : F × F),
    filterSignal num den (x ++ y) z =
      ((filterSignal num den x z).1 ++ (filterSignal num den y (filterSignal num den x z).2).1,
        (filterSignal num den y (filterSignal num den x z).2).2)
  | [], _, _ => rfl
  | x :: xs, y, z => by
    simp only [filterSignal, List.cons_append]
    rw [C44_chunks num den xs]

/-- C44, causality: the first `n` output samples do not depend on later input samples. -/
theorem C44_causal (num den : Taps F) (x y : List F) (z : F × F) (n : Nat) (h : x.take n = y.take n) :
    (filterSignal num den x z).1.take n = (filterSignal num den y z).1.take n := by
  have key : ∀ l : List F, (filterSignal num den l z).1.take n = (filterSignal num den (l.take n) z).1 := by
    intro l
    conv_lhs => rw [← List.take_append_drop n l, C44_chunks]
    by_cases hn : n ≤ l.length
    · rw [List.take_append_of_le_length (by rw [C44_length]; simp [hn])]
      rw [List.take_of_length_le (by rw [C44_length]; simp)]
    · rw [List.drop_of_length_le (by omega)]
      simp only [filterSignal, List.append_nil]
      rw [List.take_of_length_le (by rw [C44_length]; simp)]
  rw [key, key, h]

end

theorem sampleAt_neg (l : List ℝ) (n : ℤ) (h : n < 0) : sampleAt l n = 0 := by
  unfold sampleAt
  rw [if_neg (by omega)]

theorem sampleAt_cons (a : ℝ) (l : List ℝ) (n : ℤ) : sampleAt (a :: l) n = if n = 0 then a else sampleAt l (n - 1) := by
  by_cases h0 : n = 0
  · subst h0; simp [sampleAt]
  rw [if_neg h0]
  by_cases h1 : n < 0
  · rw [sampleAt_neg _ _ h1, sampleAt_neg _ _ (by omega)]
  unfold sampleAt
  rw [if_pos (by omega), if_pos (by omega)]
  obtain ⟨k, rfl⟩ : ∃ k : ℕ, n = k + 1 := ⟨(n - 1).toNat, by omega⟩
  have e1 : ((k : ℤ) + 1).toNat = k + 1 := by omega
  have e2 : ((k : ℤ) + 1 - 1).toNat = k := by omega
  simp [e1, e2]

/-- C44, recurrence: the output obeys the difference equation; the conditions handed in are added to the first two samples. -/
theorem C44_recurrence (num den : Taps ℝ) : ∀ (x : List ℝ) (z : ℝ × ℝ) (n : ℤ), 0 ≤ n → n < x.length →
    sampleAt (filterSignal num den x z).1 n =
      num.c0 * sampleAt x n + num.c1 * sampleAt x (n - 1) + num.c2 * sampleAt x (n - 2)
        - den.c1 * sampleAt (filterSignal num den x z).1 (n - 1) - den.c2 * sampleAt (filterSignal num den x z).1 (n - 2)
        + (if n = 0 then z.1 else if n = 1 then z.2 else 0)
  | [], _, n, h0, h => by simp only [List.length_nil, CharP.cast_eq_zero] at h; omega
  | x :: xs, z, n, h0, h => by
    simp only [filterSignal, sampleAt_cons]
    by_cases hn : n = 0
    · subst hn
      simp only [if_true]
      rw [if_neg (by omega), if_neg (by omega), if_neg (by omega), if_neg (by omega)]
      simp only [sampleAt_neg _ _ (show (0 : ℤ) - 1 - 1 < 0 by omega), sampleAt_neg _ _ (show (0 : ℤ) - 2 - 1 < 0 by omega)]
      ring
    have hl : (n : ℤ) < xs.length + 1 := by simpa using h
    have ih := C44_recurrence num den xs (num.c1 * x + z.2 - den.c1 * (num.c0 * x + z.1),
      num.c2 * x - den.c2 * (num.c0 * x + z.1)) (n - 1) (by omega) (by omega)
    rw [if_neg hn, if_neg hn, if_neg hn, ih]
    by_cases h1 : n = 1
    · subst h1
      simp (disch := omega) only [if_pos, if_neg, if_true, sampleAt_neg]
      ring
    by_cases h2 : n = 2
    · subst h2
      simp (disch := omega) only [if_pos, if_neg, if_true, sampleAt_neg]
      ring
    · simp (disch := omega) only [if_neg]
      rw [show n - 2 - 1 = n - 1 - 2 by ring]

/-- C44, from rest: the output is that of the section in the textbook sense. -/
theorem C44_biquad (num den : Taps ℝ) (x : List ℝ) :
    IsBiquad num.c0 num.c1 num.c2 den.c1 den.c2 x (filterSignal num den x (0, 0)).1 := by
  refine ⟨C44_length _ _ _ _, fun n h1 h2 => ?_⟩
  rw [C44_recurrence num den x (0, 0) n h1 h2]
  simp

/-- The difference equation determines the output. -/
theorem IsBiquad.unique {b0 b1 b2 a1 a2 : ℝ} {x y y' : List ℝ} (h : IsBiquad b0 b1 b2 a1 a2 x y)
    (h' : IsBiquad b0 b1 b2 a1 a2 x y') : y = y' := by
  have key : ∀ n : ℕ, ∀ k : ℕ, k < n → sampleAt y k = sampleAt y' k := by
    intro n
    induction n with
    | zero => intro k hk; omega
    | succ n ih =>
      intro k hk
      by_cases hx : k < x.length
      · have e : ∀ j : ℤ, j < k → sampleAt y j = sampleAt y' j := by
          intro j hj
          by_cases h0 : j < 0
          · rw [sampleAt_neg _ _ h0, sampleAt_neg _ _ h0]
          · obtain ⟨i, rfl⟩ := Int.eq_ofNat_of_zero_le (not_lt.mp h0)
            exact ih i (by omega)
        rw [h.2 k (by omega) (by exact_mod_cast hx), h'.2 k (by omega) (by exact_mod_cast hx), e _ (by omega), e _ (by omega)]
      · unfold sampleAt
        have e1 := h.1
        have e2 := h'.1
        rw [if_pos (by omega), if_pos (by omega), List.getD_eq_getElem?_getD, List.getD_eq_getElem?_getD,
          List.getElem?_eq_none (by omega), List.getElem?_eq_none (by omega)]
  apply List.ext_getElem (by rw [h.1, h'.1])
  intro i h1 h2
  have := key (i + 1) i (by omega)
  simpa [sampleAt, List.getD_eq_getElem?_getD, h1, h2] using this

theorem sampleAt_zipWith_lin (c d : ℝ) {x y : List ℝ} (h : x.length = y.length) (k : ℤ) :
    sampleAt (List.zipWith (fun a b => c * a + d * b) x y) k = c * sampleAt x k + d * sampleAt y k := by
  unfold sampleAt
  split
  · simp only [List.getD_eq_getElem?_getD, List.getElem?_zipWith]
    by_cases hk : k.toNat < x.length
    · rw [List.getElem?_eq_getElem hk, List.getElem?_eq_getElem (by omega)]
      simp
    · rw [List.getElem?_eq_none (by omega), List.getElem?_eq_none (by omega)]
      simp
  · ring

/-- C44, linearity: the response to a combination of inputs is the same combination of the responses. -/
theorem C44_linear (num den : Taps ℝ) (c d : ℝ) {x y : List ℝ} (h : x.length = y.length) :
    (filterSignal num den (List.zipWith (fun a b => c * a + d * b) x y) (0, 0)).1 =
      List.zipWith (fun a b => c * a + d * b) (filterSignal num den x (0, 0)).1 (filterSignal num den y (0, 0)).1 := by
  refine (C44_biquad num den _).unique ?_
  have hx := C44_biquad num den x
  have hy := C44_biquad num den y
  have hl : (filterSignal num den x (0, 0)).1.length = (filterSignal num den y (0, 0)).1.length := by rw [hx.1, hy.1, h]
  refine ⟨by simp [hx.1, hy.1], fun n h1 h2 => ?_⟩
  have h2' : n < x.length := by
    have := List.length_zipWith (f := fun a b : ℝ => c * a + d * b) (l₁ := x) (l₂ := y)
    omega
  simp only [sampleAt_zipWith_lin c d h, sampleAt_zipWith_lin c d hl]
  rw [hx.2 n h1 h2', hy.2 n h1 (by omega)]
  ring

example : (filterSignal (F := ℝ) ⟨1, 2, 3⟩ ⟨1, 1, 0⟩ [1, 1, 1] (0, 0)).1 = [1, 2, 4] := by
  simp [filterSignal]; norm_num

/-! ## Stability -/

theorem bandwidthTerm_real {cf : ℝ} (h : 0 < cf) :
    bandwidthTerm (Cpx.ofRe cf) = ⟨(cf / earQ + minBw) * (1.019 * 2.0 * Real.pi), 0⟩ := by
  have hq : (0 : ℝ) < earQ := by unfold earQ; rw [real_sci]; norm_num
  have hb : (0 : ℝ) < minBw := by unfold minBw; rw [real_sci]; norm_num
  have harg : ∀ r : ℝ, 0 < r → Complex.arg ⟨r, 0⟩ = 0 := fun r hr => Complex.arg_ofReal_of_nonneg hr.le
  have hp : ∀ r : ℝ, 0 < r → Cpx.powf (F := ℝ) ⟨r, 0⟩ 1 = ⟨r, 0⟩ := by
    intro r hr
    unfold Cpx.powf Cpx.fromPolar Cpx.norm Cpx.arg
    have ha : Flt.atan2 (0 : ℝ) r = 0 := harg r hr
    simp only [real_eq, real_lit0, real_hypot, real_powf, ha, real_cos, real_sin]
    rw [if_neg (by simp)]
    simp [Real.sqrt_sq hr.le]
  unfold bandwidthTerm Cpx.ofRe
  simp only [Cpx.sdiv, Cpx.sadd, Cpx.smul, real_lit0, real_lit1, real_powf, Real.rpow_one, zero_div, div_one]
  rw [hp _ (by positivity)]
  simp only
  rw [hp _ (by positivity)]
  simp

/-- The denominator of a section in closed form. -/
theorem bandCoeffs_den {sr : ℕ} {cf : ℝ} (h : 0 < cf) :
    ∃ bt : ℝ, (0 < sr → 0 < bt) ∧ (bandCoeffs sr cf).b1 = -2 * Real.exp (-bt) * Real.cos (2 * Real.pi * cf / sr) ∧
      (bandCoeffs sr cf).b2 = Real.exp (-bt) ^ 2 := by
  have hq : (0 : ℝ) < earQ := by unfold earQ; rw [real_sci]; norm_num
  have hb : (0 : ℝ) < minBw := by unfold minBw; rw [real_sci]; norm_num
  refine ⟨(cf / earQ + minBw) * (1.019 * 2.0 * Real.pi) * (1 / sr), ?_, ?_, ?_⟩
  · intro hs
    have : (0 : ℝ) < sr := by exact_mod_cast hs
    have := Real.pi_pos
    positivity
  · unfold bandCoeffs
    simp only [real_pi, real_ofNat, real_lit1]
    rw [bandwidthTerm_real h]
    generalize (cf / earQ + minBw) * (1.019 * 2.0 * Real.pi) = B
    simp only [Cpx.ofRe, Cpx.smul, Cpx.exp, Cpx.fromPolar, Cpx.cos, Cpx.div, real_exp, real_cos, real_sin, real_cosh,
      real_sinh, real_lit0, real_lit2, zero_mul, Real.cos_zero, Real.sin_zero, Real.cosh_zero, Real.sinh_zero, mul_zero,
      mul_one, add_zero]
    rw [Real.exp_neg, show cf * 2 * Real.pi * (1 / (sr : ℝ)) = 2 * Real.pi * cf / sr by ring]
    have := Real.exp_pos (B * (1 / sr))
    field_simp
  · unfold bandCoeffs
    simp only [real_pi, real_ofNat, real_lit1]
    rw [bandwidthTerm_real h]
    generalize (cf / earQ + minBw) * (1.019 * 2.0 * Real.pi) = B
    simp only [Cpx.ofRe, Cpx.smul, Cpx.exp, Cpx.fromPolar, real_exp, real_cos, real_lit2, zero_mul, Real.cos_zero, mul_one]
    rw [← Real.exp_nat_mul]
    congr 1
    push_cast
    ring

/-- C45: every root of the denominator of a gammatone section lies inside the unit circle. -/
theorem C45_stable {sr : ℕ} (hs : 0 < sr) {cf : ℝ} (h : 0 < cf) (z : ℂ)
    (hz : z ^ 2 + (bandCoeffs sr cf).b1 * z + (bandCoeffs sr cf).b2 = 0) : ‖z‖ < 1 := by
  obtain ⟨bt, hbt, h1, h2⟩ := bandCoeffs_den (sr := sr) h
  have hr1 : Real.exp (-bt) < 1 := by rw [← Real.exp_zero]; exact Real.exp_lt_exp.mpr (by linarith [hbt hs])
  have hr0 := Real.exp_pos (-bt)
  generalize Real.exp (-bt) = r at *
  generalize 2 * Real.pi * cf / sr = θ at *
  rw [h1, h2] at hz
  have hf : (z - r * Complex.exp (θ * Complex.I)) * (z - r * Complex.exp (-θ * Complex.I)) = 0 := by
    rw [← hz, Complex.exp_mul_I, Complex.exp_mul_I, Complex.cos_neg, Complex.sin_neg]
    push_cast
    linear_combination (-(r : ℂ) ^ 2 * Complex.sin θ ^ 2) * Complex.I_sq + (r : ℂ) ^ 2 * Complex.sin_sq_add_cos_sq (θ : ℂ)
  have hn : ∀ φ : ℝ, ‖(r : ℂ) * Complex.exp (φ * Complex.I)‖ = r := by
    intro φ
    rw [norm_mul, Complex.norm_exp_ofReal_mul_I, Complex.norm_real, Real.norm_of_nonneg hr0.le, mul_one]
  rcases mul_eq_zero.mp hf with h | h
  · rw [sub_eq_zero.mp h, hn]; exact hr1
  · rw [sub_eq_zero.mp h]
    have := hn (-θ)
    push_cast at this
    rw [this]; exact hr1

example : ∃ z : ℂ, z ^ 2 + (bandCoeffs 16000 (440 : ℝ)).b1 * z + (bandCoeffs 16000 (440 : ℝ)).b2 = 0 := by
  obtain ⟨z, hz⟩ := IsAlgClosed.exists_root (k := ℂ)
    (Polynomial.X ^ 2 + Polynomial.C (((bandCoeffs 16000 (440 : ℝ)).b1 : ℝ) : ℂ) * Polynomial.X +
      Polynomial.C (((bandCoeffs 16000 (440 : ℝ)).b2 : ℝ) : ℂ)) (by
      rw [show (Polynomial.X ^ 2 : Polynomial ℂ) = Polynomial.C 1 * Polynomial.X ^ 2 by simp, Polynomial.degree_quadratic one_ne_zero]
      decide)
  exact ⟨z, by simpa [Polynomial.IsRoot] using hz⟩

end Visqol
