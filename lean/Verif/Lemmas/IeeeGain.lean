import Verif.Lemmas.IeeeBand
import Verif.Lemmas.IeeeSpectro

/-! # Floating point: gain and poles of one band -/

set_option linter.unusedSectionVars false

namespace Visqol
open Ieee

variable {F : Type} [Flt F] [Ieee F] [Libm F]

/-! ## The square roots -/

theorem val_three_halves : Is (1.5 : F) (3 / 2) ∧ Is ((3.0 : F) / 2.0) (3 / 2) := by
  have := rnd_dyadic (F := F) 3 (-1) (by norm_num) (by norm_num) (by norm_num)
  rw [show ((3 : ℤ) : ℝ) * 2 ^ (-1 : ℤ) = 3 / 2 by norm_num [zpow_neg]] at this
  constructor
  · show val _ = _
    rw [val_lit (x := 3 / 2) (by norm_num)]
    exact this
  · exact (Is.div val_3 val_2 (by norm_num)).trans this

theorem pow_two_near {e : F} (he : Is e (3 / 2)) : ∃ p, Is (Flt.powf 2.0 e) p ∧ 28 / 10 ≤ p ∧ p ≤ 29 / 10 := by
  have hx0 : (0 : ℝ) < 2 ^ (3 / 2 : ℝ) := by positivity
  have hsq : (2 : ℝ) ^ (3 / 2 : ℝ) * 2 ^ (3 / 2 : ℝ) = 8 := by
    rw [← Real.rpow_add (by norm_num)]
    norm_num
  have h1 : 282 / 100 ≤ (2 : ℝ) ^ (3 / 2 : ℝ) := by
    by_contra hc
    nlinarith
  have h2 : (2 : ℝ) ^ (3 / 2 : ℝ) ≤ 284 / 100 := by
    by_contra hc
    nlinarith
  have hs : Sc 2 ((2 : ℝ) ^ (3 / 2 : ℝ)) := by constructor <;> norm_num <;> linarith
  have hs5 := hs.mono (n := 500) (by norm_num)
  obtain ⟨z, hz, hze⟩ := Libm.powf_acc (2.0 : F) e 2 (3 / 2) val_2 he (by norm_num) hs5.1 hs5.2
  have z1 := (abs_le.mp hze).1
  have z2 := (abs_le.mp hze).2
  clear hs5 hze hs
  norm_num at z1 z2
  exact ⟨z, hz, by linarith, by linarith⟩

theorem sqrt_near {a : F} {x : ℝ} (ha : val a = rnd F x) (h1 : 1 / 100 ≤ x) (h2 : x ≤ 6) : ∃ σ, Is (Flt.sqrt a) σ ∧ 0 ≤ σ ∧ σ ≤ 3 := by
  obtain ⟨y, hy, hye⟩ := rnd_err F (x := x) (B := 8) (by rw [abs_of_nonneg (by linarith)]; linarith) (by norm_num) (by
    exact (show (8 : ℝ) ≤ 2 ^ 3 by norm_num).trans (two_pow_mono (by norm_num)))
  have y1 := (abs_le.mp hye).1
  have y2 := (abs_le.mp hye).2
  norm_num at y1 y2
  have hs0 := Real.sqrt_nonneg y
  have hs1 : Real.sqrt y ≤ 29 / 10 := by rw [Real.sqrt_le_left (by norm_num)]; norm_num; linarith
  obtain ⟨w, hw, hwe⟩ := rnd_err F (x := Real.sqrt y) (B := 8) (by rw [abs_of_nonneg hs0]; linarith) (by norm_num) (by
    exact (show (8 : ℝ) ≤ 2 ^ 3 by norm_num).trans (two_pow_mono (by norm_num)))
  have w2 := (abs_le.mp hwe).2
  norm_num at w2
  exact ⟨w, (Is.sqrt (ha.trans hy) (by linarith)).trans hw, rnd_nonneg hw hs0, by linarith⟩

theorem root_minus {e : F} (he : Is e (3 / 2)) : ∃ σ, Is (Flt.sqrt (3.0 - Flt.powf 2.0 e)) σ ∧ 0 ≤ σ ∧ σ ≤ 3 := by
  obtain ⟨p, hp, h1, h2⟩ := pow_two_near he
  exact sqrt_near (val_3.sub hp) (by linarith) (by linarith)

theorem root_plus {e : F} (he : Is e (3 / 2)) : ∃ σ, Is (Flt.sqrt (3.0 + Flt.powf 2.0 e)) σ ∧ 0 ≤ σ ∧ σ ≤ 3 := by
  obtain ⟨p, hp, h1, h2⟩ := pow_two_near he
  exact sqrt_near (val_3.add hp) (by linarith) (by linarith)

theorem root_minus' {e : F} (he : Is e (3 / 2)) : ∃ σ, Is (Flt.sqrt (3.0 + -(Flt.powf 2.0 e))) σ ∧ 0 ≤ σ ∧ σ ≤ 3 := by
  obtain ⟨p, hp, h1, h2⟩ := pow_two_near he
  exact sqrt_near (val_3.add hp.neg) (by linarith) (by linarith)

/-! ## The zeros -/

theorem rterm_sub {a b : Cpx F} {x y σ : ℝ} {s : F} (ha : CR 1 a x 25) (hb : CR 1 b y 25) (c1 : |x| ≤ 1) (c2 : |y| ≤ 1) (hs : Is s σ) (h0 : 0 ≤ σ)
    (h3 : σ ≤ 3) : CR 1 (a.sub (b.smul s)) (x - y * σ) 110 ∧ |x - y * σ| ≤ 4 := by
  have hσ : |σ| ≤ 3 := by rw [abs_of_nonneg h0]; exact h3
  have e := CR.smul sc1 sc1 hb (Nr.exact hs) c2 hσ (mul_one _) rfl (m := 77)
  have k : |y * σ| ≤ 3 := by rw [abs_mul]; exact (mul_le_mul c2 hσ (abs_nonneg _) (by norm_num)).trans (by norm_num)
  exact ⟨(CR.sub (Sc.one.mono (by norm_num)) ha e ((abs_sub _ _).trans (by linarith)) (by norm_num)).mono (by norm_num) (by norm_num),
    (abs_sub _ _).trans (by linarith)⟩

theorem rterm_add {a b : Cpx F} {x y σ : ℝ} {s : F} (ha : CR 1 a x 25) (hb : CR 1 b y 25) (c1 : |x| ≤ 1) (c2 : |y| ≤ 1) (hs : Is s σ) (h0 : 0 ≤ σ)
    (h3 : σ ≤ 3) : CR 1 (a.add (b.smul s)) (x + y * σ) 110 ∧ |x + y * σ| ≤ 4 := by
  have hσ : |σ| ≤ 3 := by rw [abs_of_nonneg h0]; exact h3
  have e := CR.smul sc1 sc1 hb (Nr.exact hs) c2 hσ (mul_one _) rfl (m := 77)
  have k : |y * σ| ≤ 3 := by rw [abs_mul]; exact (mul_le_mul c2 hσ (abs_nonneg _) (by norm_num)).trans (by norm_num)
  exact ⟨(CR.add (Sc.one.mono (by norm_num)) ha e ((abs_add_le _ _).trans (by linarith)) (by norm_num)).mono (by norm_num) (by norm_num),
    (abs_add_le _ _).trans (by linarith)⟩

theorem zero_norm (θ q δ : ℝ) :
    2 * Real.sin θ ≤ ‖(⟨Real.cos (2 * θ) * -2 + q * Real.cos θ * 2 * δ, Real.sin (2 * θ) * -2 + q * Real.sin θ * 2 * δ⟩ : ℂ)‖ := by
  rw [Complex.norm_def, Complex.normSq_apply]
  apply Real.le_sqrt_of_sq_le
  dsimp only
  have hcs := Real.sin_sq_add_cos_sq θ
  have h1 : Real.sin (2 * θ) * Real.cos θ - Real.cos (2 * θ) * Real.sin θ = Real.sin θ := by
    rw [← Real.sin_sub]; ring_nf
  set A := Real.cos (2 * θ) * -2 + q * Real.cos θ * 2 * δ with hA
  set B := Real.sin (2 * θ) * -2 + q * Real.sin θ * 2 * δ with hB
  have h2 : B * Real.cos θ - A * Real.sin θ = -2 * Real.sin θ := by
    rw [hA, hB]; linear_combination (-2) * h1
  have h3 : (B * Real.cos θ - A * Real.sin θ) ^ 2 + (A * Real.cos θ + B * Real.sin θ) ^ 2 = A * A + B * B := by
    linear_combination (A * A + B * B) * hcs
  rw [h2] at h3
  nlinarith [sq_nonneg (A * Real.cos θ + B * Real.sin θ)]

section
variable {sr : Nat} {cf : F} {c T : ℝ} (h : Tone sr cf c T)
include h

/-- `x01`, lines 109-113 of the filter design. -/
theorem Tone.x01 : CN T ((((((Cpx.smul ⟨0.0, 1.0⟩ 4.0).mul (Cpx.ofRe cf)).smul Flt.pi).smul (1.0 / (Flt.ofNat sr : F))).exp.smul (-2.0)).smul
    (1.0 / (Flt.ofNat sr : F))) (Real.cos (2 * (2 * Real.pi * (c * T))) * -2) (Real.sin (2 * (2 * Real.pi * (c * T))) * -2) 110 := by
  have e := h.xExp
  rw [show 4 * Real.pi * (c * T) = 2 * (2 * Real.pi * (c * T)) by ring] at e
  have hm2 : Nr 1 (-2.0 : F) (-2) 0 := Nr.exact (Is.neg val_2)
  have c1 := Real.abs_cos_le_one (2 * (2 * Real.pi * (c * T)))
  have c2 := Real.abs_sin_le_one (2 * (2 * Real.pi * (c * T)))
  have a1 := CN.smul sc1 sc1 e hm2 (Y := 2) c1 c2 (by norm_num) (mul_one _) rfl rfl (m := 102)
  refine CN.smul sc1 (h.scT.mono (by norm_num)) a1 h.t_near (X := 2) (Y := 1) ?_ ?_ (by norm_num) (one_mul _) (mul_one _) (mul_one _)
  · rw [abs_mul]; norm_num; linarith
  · rw [abs_mul]; norm_num; linarith

theorem Tone.x02 {β : ℝ} (hb : CR β (bandwidthTerm (Cpx.ofRe cf)) 1 0) (hβ : 150 ≤ β) (hβT : β * T ≤ 1) :
    CN T (((Cpx.add (Cpx.neg ((bandwidthTerm (Cpx.ofRe cf)).smul (1.0 / (Flt.ofNat sr : F))))
      ((((Cpx.smul ⟨0.0, 1.0⟩ 2.0).mul (Cpx.ofRe cf)).smul Flt.pi).smul (1.0 / (Flt.ofNat sr : F)))).exp.smul 2.0).smul (1.0 / (Flt.ofNat sr : F)))
      (Real.exp (-(β * T)) * Real.cos (2 * Real.pi * (c * T)) * 2) (Real.exp (-(β * T)) * Real.sin (2 * Real.pi * (c * T)) * 2) 130 := by
  obtain ⟨h1, h2⟩ := h.imag (val_2 (F := F)) (by norm_num) (by norm_num)
  obtain ⟨d, _⟩ := h.decay hb hβ hβT
  have hT0 := h.scT.pos
  have hβT0 : 0 ≤ β * T := by positivity
  have aT := h.angle_abs (ρ := 2) (by norm_num) (by norm_num)
  have r1 := Nr.add (Sc.one.mono (by norm_num)) d.neg.1 (Nr.zero (s := 1) h1) (by rw [add_zero, abs_neg, abs_of_nonneg hβT0]; linarith) (by norm_num)
  have r2 := Nr.add (Sc.one.mono (by norm_num)) (Nr.zero (s := 1) d.neg.2) h2 (by rw [zero_add]; linarith) (by norm_num)
  rw [add_zero] at r1
  rw [zero_add] at r2
  have e := CN.exp (a := Cpx.add (Cpx.neg ((bandwidthTerm (Cpx.ofRe cf)).smul (1.0 / (Flt.ofNat sr : F))))
      ((((Cpx.smul ⟨0.0, 1.0⟩ 2.0).mul (Cpx.ofRe cf)).smul Flt.pi).smul (1.0 / (Flt.ofNat sr : F)))) r1 r2 (by linarith) (by linarith) (by linarith)
      (by norm_num) (by norm_num) (by norm_num) (by norm_num)
  have q1 : Real.exp (-(β * T)) ≤ 1 := Real.exp_le_one_iff.mpr (by linarith)
  have q0 := Real.exp_pos (-(β * T))
  have b1 : |Real.exp (-(β * T)) * Real.cos (2 * Real.pi * (c * T))| ≤ 1 := by
    rw [abs_mul, abs_of_pos q0]
    exact (mul_le_mul q1 (Real.abs_cos_le_one _) (abs_nonneg _) (by norm_num)).trans (by norm_num)
  have b2 : |Real.exp (-(β * T)) * Real.sin (2 * Real.pi * (c * T))| ≤ 1 := by
    rw [abs_mul, abs_of_pos q0]
    exact (mul_le_mul q1 (Real.abs_sin_le_one _) (abs_nonneg _) (by norm_num)).trans (by norm_num)
  have a1 := CN.smul sc1 sc1 (e.mono (l := 60) (by norm_num) (by norm_num)) (Nr.exact (F := F) val_2) (Y := 2) b1 b2 (by norm_num) (mul_one _) rfl rfl (m := 122)
  refine CN.smul sc1 (h.scT.mono (by norm_num)) a1 h.t_near (X := 2) (Y := 1) ?_ ?_ (by norm_num) (one_mul _) (mul_one _) (mul_one _)
  · rw [abs_mul, show |(2 : ℝ)| = 2 by norm_num]; linarith
  · rw [abs_mul, show |(2 : ℝ)| = 2 by norm_num]; linarith

/-- The order of magnitude of a factor of the gain. -/
theorem Tone.factor {u v r : Cpx F} {q δ : ℝ} (hq0 : 0 ≤ q) (hq1 : q ≤ 1)
    (h1 : CN T u (Real.cos (2 * (2 * Real.pi * (c * T))) * -2) (Real.sin (2 * (2 * Real.pi * (c * T))) * -2) 110)
    (h2 : CN T v (q * Real.cos (2 * Real.pi * (c * T)) * 2) (q * Real.sin (2 * Real.pi * (c * T)) * 2) 130)
    (hr : CR 1 r δ 110) (hδ : |δ| ≤ 4) : CB 32 0 (u.add (v.mul r)) := by
  have sT := h.scT
  obtain ⟨hT1, hT2⟩ := h.T_bounds
  set θ := 2 * Real.pi * (c * T) with hθ
  have bq : ∀ {z : ℝ}, |z| ≤ 1 → |q * z * 2| ≤ 2 := by
    intro z hz
    rw [abs_mul, abs_mul, abs_of_nonneg hq0]
    have := mul_le_mul hq1 hz (abs_nonneg _) (by norm_num)
    norm_num
    linarith
  have bm : ∀ {z : ℝ}, |z| ≤ 1 → |z * -2| ≤ 2 := by
    intro z hz
    rw [abs_mul]; norm_num; linarith
  have b1 := bq (Real.abs_cos_le_one θ)
  have b2 := bq (Real.abs_sin_le_one θ)
  have p := CN.mulR (m := 800) (sT.mono (by norm_num)) h2 hr b1 b2 hδ
  have m1 := bm (Real.abs_cos_le_one (2 * θ))
  have m2 := bm (Real.abs_sin_le_one (2 * θ))
  have c1 : |q * Real.cos θ * 2 * δ| ≤ 8 := by rw [abs_mul]; exact (mul_le_mul b1 hδ (abs_nonneg _) (by norm_num)).trans (by norm_num)
  have c2 : |q * Real.sin θ * 2 * δ| ≤ 8 := by rw [abs_mul]; exact (mul_le_mul b2 hδ (abs_nonneg _) (by norm_num)).trans (by norm_num)
  have d1 : |Real.cos (2 * θ) * -2 + q * Real.cos θ * 2 * δ| ≤ 10 := (abs_add_le _ _).trans (by linarith)
  have d2 : |Real.sin (2 * θ) * -2 + q * Real.sin θ * 2 * δ| ≤ 10 := (abs_add_le _ _).trans (by linarith)
  have s := CN.add (sT.mono (by norm_num)) h1 p (by linarith) (by linarith) (by norm_num)
  obtain ⟨z, z1, z2, z3⟩ := norm_near s.1 s.2 sT.pos.le
  have lo := zero_norm θ q δ
  have hs : 19 / 100000 ≤ Real.sin θ := h.sin_low
  have up : ‖(⟨Real.cos (2 * θ) * -2 + q * Real.cos θ * 2 * δ, Real.sin (2 * θ) * -2 + q * Real.sin θ * 2 * δ⟩ : ℂ)‖ ≤ 20 :=
    (Complex.norm_le_abs_re_add_abs_im _).trans (by dsimp only; linarith)
  set N := ‖(⟨Real.cos (2 * θ) * -2 + q * Real.cos θ * 2 * δ, Real.sin (2 * θ) * -2 + q * Real.sin θ * 2 * δ⟩ : ℂ)‖
  have e1 := (abs_le.mp z3).1
  have e2 := (abs_le.mp z3).2
  have f1 : T * (38 / 100000) ≤ T * N := mul_le_mul_of_nonneg_left (by linarith) sT.pos.le
  have f2 : T * N ≤ T * 20 := mul_le_mul_of_nonneg_left up sT.pos.le
  norm_num at e1 e2
  refine ⟨z, z1, z2, ?_, ?_⟩
  · norm_num; linarith
  · norm_num; linarith

/-! ## The poles -/

theorem Tone.x5 {β : ℝ} (hb : CR β (bandwidthTerm (Cpx.ofRe cf)) 1 0) (hβ : 150 ≤ β) (hβT : β * T ≤ 1) :
    CB 25 3 (Cpx.add (Cpx.sub (Cpx.rdiv (-2.0) ((((bandwidthTerm (Cpx.ofRe cf)).smul 2.0).smul (1.0 / (Flt.ofNat sr : F))).exp))
      ((((((Cpx.smul ⟨0.0, 1.0⟩ 4.0).mul (Cpx.ofRe cf)).smul Flt.pi).smul (1.0 / (Flt.ofNat sr : F))).exp).smul 2.0))
      ((((((((Cpx.smul ⟨0.0, 1.0⟩ 4.0).mul (Cpx.ofRe cf)).smul Flt.pi).smul (1.0 / (Flt.ofNat sr : F))).exp).sadd 1.0).smul 2.0).div
        ((bandwidthTerm (Cpx.ofRe cf)).smul (1.0 / (Flt.ofNat sr : F))).exp)) := by
  obtain ⟨d, sB⟩ := h.decay hb hβ hβT
  have sT := h.scT.mono (n := 100) (by norm_num)
  obtain ⟨hT1, hT2⟩ := h.T_bounds
  have hT0 := h.scT.pos
  have hβT0 : 0 ≤ β * T := by positivity
  have hβT1 : 150 / 1000000 ≤ β * T := by
    have := mul_le_mul hβ hT1 (by norm_num) (by linarith)
    linarith
  -- exp(2 b t)
  have w1 : CR β ((bandwidthTerm (Cpx.ofRe cf)).smul 2.0) 2 2 := CR.smul sB sc1 hb (Nr.exact (F := F) val_2) (X := 1) (Y := 2) (by norm_num) (by norm_num) (mul_one _) (one_mul _)
  have w2 : CR (β * T) (((bandwidthTerm (Cpx.ofRe cf)).smul 2.0).smul (1.0 / (Flt.ofNat sr : F))) 2 6 :=
    CR.smul sB sT w1 h.t_near (X := 2) (Y := 1) (by norm_num) (by norm_num) rfl (mul_one _)
  have w3 := w2.to_one (y := β * T * 2) (by norm_num) hβT rfl
  have hab : |β * T * 2| ≤ 10 := by rw [abs_of_nonneg (by linarith)]; linarith
  have w4 := w3.exp hab (by norm_num) (by norm_num)
  have scE : ∀ {x : ℝ}, 0 ≤ x → x ≤ 2 → Sc 100 (Real.exp x) := by
    intro x hx hx2
    have : Real.exp 2 ≤ 16 := by
      have := Real.exp_one_lt_d9
      have e : Real.exp 2 = (Real.exp 1) ^ 2 := by rw [← Real.exp_nat_mul]; norm_num
      rw [e]
      calc (Real.exp 1) ^ 2 ≤ 4 ^ 2 := pow_le_pow_left₀ (Real.exp_pos _).le (by linarith) 2
        _ = 16 := by norm_num
    refine (show Sc 4 _ from ⟨?_, ?_⟩).mono (by norm_num)
    · have := Real.one_le_exp hx
      norm_num; linarith
    · have := Real.exp_le_exp.mpr hx2
      norm_num; linarith
  have sE2 := scE (x := β * T * 2) (by linarith) (by linarith)
  have sE1 := scE (x := β * T) hβT0 (by linarith)
  have inv2 : 1 / Real.exp (β * T * 2) = Real.exp (-(β * T)) * Real.exp (-(β * T)) := by
    rw [← Real.exp_add, one_div, ← Real.exp_neg]; ring_nf
  have inv1 : 1 / Real.exp (β * T) = Real.exp (-(β * T)) := by rw [one_div, ← Real.exp_neg]
  set q := Real.exp (-(β * T)) with hqdef
  have q0 : 0 < q := Real.exp_pos _
  have q1 : q ≤ 1 := Real.exp_le_one_iff.mpr (by linarith)
  have hqq : q * q ≤ 1 := mul_le_one₀ q1 q0.le q1
  have w5 := CR.rdiv (m := 1000) sE2 (Is.neg (val_2 (F := F))) w4 (X := 2) (k := 0) (by norm_num)
  rw [inv2] at w5
  have w6 := (w5.to_one (by norm_num) hqq rfl).toCN (by norm_num) (by norm_num)
  -- X
  have e := h.xExp
  rw [show 4 * Real.pi * (c * T) = 2 * (2 * Real.pi * (c * T)) by ring] at e
  set θ := 2 * Real.pi * (c * T) with hθ
  have c1 := Real.abs_cos_le_one (2 * θ)
  have c2 := Real.abs_sin_le_one (2 * θ)
  have x2 := CN.smul sc1 sc1 e (Nr.exact (F := F) val_2) (Y := 2) c1 c2 (by norm_num) (mul_one _) rfl rfl (m := 102)
  have bm : ∀ {z : ℝ}, |z| ≤ 1 → |z * 2| ≤ 2 := by
    intro z hz
    rw [abs_mul]; norm_num; linarith
  have hqm : |q * q * -2| ≤ 2 := by rw [abs_mul, abs_of_nonneg (by positivity)]; norm_num; linarith
  have y1 := CN.sub (Sc.one.mono (by norm_num)) w6 x2 ((abs_sub _ _).trans (by linarith [bm c1])) ((abs_sub _ _).trans (by rw [abs_zero]; linarith [bm c2])) (by norm_num)
  -- (X + 1) * 2 / exp(b t)
  have u1 : CN 1 (((((((Cpx.smul ⟨0.0, 1.0⟩ 4.0).mul (Cpx.ofRe cf)).smul Flt.pi).smul (1.0 / (Flt.ofNat sr : F))).exp).sadd 1.0))
      (Real.cos (2 * θ) + 1) (Real.sin (2 * θ)) 51 := by
    refine ⟨?_, e.2.mono (by norm_num) (by norm_num)⟩
    exact (Nr.add (Sc.one.mono (by norm_num)) e.1 (Nr.exact (F := F) val_1) ((abs_add_le _ _).trans (by rw [abs_one]; linarith)) (by norm_num)).mono (by norm_num) (by norm_num)
  have v1 : |Real.cos (2 * θ) + 1| ≤ 2 := (abs_add_le _ _).trans (by rw [abs_one]; linarith)
  have v2 : |Real.sin (2 * θ)| ≤ 2 := by linarith
  have u2 := CN.smul sc1 sc1 u1 (Nr.exact (F := F) val_2) (Y := 2) v1 v2 (by norm_num) (mul_one _) rfl rfl (m := 104)
  have w7 := d.exp (by rw [abs_of_nonneg hβT0]; linarith) (by norm_num) (by norm_num)
  have v3 : |(Real.cos (2 * θ) + 1) * 2| ≤ 4 := by rw [abs_mul]; norm_num; linarith
  have v4 : |Real.sin (2 * θ) * 2| ≤ 4 := by rw [abs_mul]; norm_num; linarith
  have u3 := CN.divR (m := 1600) sc1 sE1 u2 w7 v3 v4 inv1
  have u4 : CN 1 _ (q * ((Real.cos (2 * θ) + 1) * 2)) (q * (Real.sin (2 * θ) * 2)) 1600 :=
    ⟨u3.1.to_one (by norm_num) q1 rfl, u3.2.to_one (by norm_num) q1 rfl⟩
  have v5 : |q * ((Real.cos (2 * θ) + 1) * 2)| ≤ 4 := by
    rw [abs_mul, abs_of_pos q0]; exact (mul_le_mul q1 v3 (abs_nonneg _) (by norm_num)).trans (by norm_num)
  have v6 : |q * (Real.sin (2 * θ) * 2)| ≤ 4 := by
    rw [abs_mul, abs_of_pos q0]; exact (mul_le_mul q1 v4 (abs_nonneg _) (by norm_num)).trans (by norm_num)
  have y2 := CN.add (Sc.one.mono (by norm_num)) y1 u4
    ((abs_add_le _ _).trans (by linarith [(abs_sub (q * q * -2) (Real.cos (2 * θ) * 2)), bm c1]))
    ((abs_add_le _ _).trans (by linarith [(abs_sub (0 : ℝ) (Real.sin (2 * θ) * 2)), bm c2, abs_zero (α := ℝ)])) (by norm_num)
  obtain ⟨z, z1, z2, z3⟩ := norm_near y2.1 y2.2 (by norm_num)
  -- the exact modulus
  have hfac : (⟨q * q * -2 - Real.cos (2 * θ) * 2 + q * ((Real.cos (2 * θ) + 1) * 2), 0 - Real.sin (2 * θ) * 2 + q * (Real.sin (2 * θ) * 2)⟩ : ℂ) =
      ((2 * (1 - q) : ℝ) : ℂ) * ⟨q - Real.cos (2 * θ), -Real.sin (2 * θ)⟩ := by
    apply Complex.ext
    · simp only [Complex.mul_re, Complex.ofReal_re, Complex.ofReal_im]; ring
    · simp only [Complex.mul_im, Complex.ofReal_re, Complex.ofReal_im]; ring
  rw [hfac, norm_mul, Complex.norm_real, Real.norm_of_nonneg (by linarith)] at z3
  have hcs := Real.sin_sq_add_cos_sq (2 * θ)
  have lo : 1 - q ≤ ‖(⟨q - Real.cos (2 * θ), -Real.sin (2 * θ)⟩ : ℂ)‖ := by
    rw [Complex.norm_def, Complex.normSq_apply]
    apply Real.le_sqrt_of_sq_le
    dsimp only
    have := (abs_le.mp c1).2
    have hh : q * Real.cos (2 * θ) ≤ q * 1 := mul_le_mul_of_nonneg_left this q0.le
    linarith [hcs, show (1 - q) ^ 2 = 1 - 2 * q + q * q by ring, show (q - Real.cos (2 * θ)) * (q - Real.cos (2 * θ)) + -Real.sin (2 * θ) * -Real.sin (2 * θ) = q * q - 2 * (q * Real.cos (2 * θ)) + (Real.sin (2 * θ) ^ 2 + Real.cos (2 * θ) ^ 2) by ring]
  have up : ‖(⟨q - Real.cos (2 * θ), -Real.sin (2 * θ)⟩ : ℂ)‖ ≤ 3 := by
    refine (Complex.norm_le_abs_re_add_abs_im _).trans ?_
    dsimp only
    rw [abs_neg]
    have := abs_sub q (Real.cos (2 * θ))
    rw [abs_of_pos q0] at this
    linarith
  have hq2 : q ≤ 1 - 149 / 1000000 := by
    have h1 : Real.exp (-(β * T)) ≤ Real.exp (-(150 / 1000000)) := Real.exp_le_exp.mpr (by linarith)
    have h2 : Real.exp (-(150 / 1000000 : ℝ)) ≤ 1 / (1 + 150 / 1000000) := by
      rw [Real.exp_neg, ← one_div]
      exact one_div_le_one_div_of_le (by norm_num) (by linarith [Real.add_one_le_exp (150 / 1000000 : ℝ)])
    have h3 : (1 : ℝ) / (1 + 150 / 1000000) ≤ 1 - 149 / 1000000 := by norm_num
    rw [hqdef]; linarith
  set N := ‖(⟨q - Real.cos (2 * θ), -Real.sin (2 * θ)⟩ : ℂ)‖
  have e1 := (abs_le.mp z3).1
  have e2 := (abs_le.mp z3).2
  norm_num at e1 e2
  have g1 : 2 * (149 / 1000000) * (149 / 1000000) ≤ 2 * (1 - q) * N := by
    have := mul_le_mul (show (149 / 1000000 : ℝ) ≤ 1 - q by linarith) (show (149 / 1000000 : ℝ) ≤ N by linarith) (by norm_num) (by linarith)
    linarith
  have g2 : 2 * (1 - q) * N ≤ 6 := by
    have := mul_le_mul (show 1 - q ≤ 1 by linarith) up (norm_nonneg _) (by norm_num)
    linarith
  refine ⟨z, z1, z2, ?_, ?_⟩
  · norm_num at g1 ⊢; linarith
  · norm_num; linarith

theorem Tone.stable {β : ℝ} (hb : CR β (bandwidthTerm (Cpx.ofRe cf)) 1 0) (hβ : 150 ≤ β) (hβT : β * T ≤ 1) :
    StableDen (F := F) ⟨1.0, (((((((Cpx.ofRe cf).smul 2.0).smul Flt.pi).smul (1.0 / (Flt.ofNat sr : F))).cos.smul (-2.0))).div
      ((bandwidthTerm (Cpx.ofRe cf)).smul (1.0 / (Flt.ofNat sr : F))).exp).re,
      ((((bandwidthTerm (Cpx.ofRe cf)).smul (1.0 / (Flt.ofNat sr : F))).smul (-2.0)).exp).re⟩ := by
  obtain ⟨d, sB⟩ := h.decay hb hβ hβT
  obtain ⟨hT1, hT2⟩ := h.T_bounds
  have hT0 := h.scT.pos
  have hβT0 : 0 ≤ β * T := by positivity
  have hβT1 : 150 / 1000000 ≤ β * T := by
    have := mul_le_mul hβ hT1 (by norm_num) (by linarith)
    linarith
  have aT := h.angle_abs (ρ := 2) (by norm_num) (by norm_num)
  have hcos := (h.angle.cos (by linarith) (by norm_num) (by norm_num)).mono (l := 25) (by norm_num) (by norm_num)
  have hsl := h.sin_low
  set θ := 2 * Real.pi * (c * T) with hθ
  have c1 := Real.abs_cos_le_one θ
  have m2 : Nr 1 (-2.0 : F) (-2) 0 := Nr.exact (Is.neg val_2)
  have n1 := CR.smul sc1 sc1 hcos m2 (Y := 2) c1 (by norm_num) (mul_one _) rfl (m := 52)
  have w7 := d.exp (by rw [abs_of_nonneg hβT0]; linarith) (by norm_num) (by norm_num)
  have sE : Sc 100 (Real.exp (β * T)) := by
    have := Real.exp_one_lt_d9
    refine (show Sc 2 _ from ⟨?_, ?_⟩).mono (by norm_num)
    · have := Real.one_le_exp hβT0
      norm_num; linarith
    · have := Real.exp_le_exp.mpr hβT
      norm_num; linarith
  have inv1 : 1 / Real.exp (β * T) = Real.exp (-(β * T)) := by rw [one_div, ← Real.exp_neg]
  have n2 := CR.div (m := 800) sc1 sE n1 w7 (X := 2) (by rw [abs_mul]; norm_num; linarith) inv1
  obtain ⟨r1, hr1, e1⟩ := n2.1
  have n3 := CR.smul sc1 sc1 d m2 (X := 1) (Y := 2) (by rw [abs_of_nonneg hβT0]; exact hβT) (by norm_num) (mul_one _) rfl (m := 8)
  have n4 := n3.exp (by rw [abs_of_nonpos (by linarith)]; linarith) (by norm_num) (by norm_num)
  have e22 : Real.exp (β * T * -2) = Real.exp (-(β * T)) * Real.exp (-(β * T)) := by rw [← Real.exp_add]; ring_nf
  rw [e22] at n4
  obtain ⟨r2, hr2, e2⟩ := n4.1
  have hq2 : Real.exp (-(β * T)) ≤ 1 - 149 / 1000000 := by
    have h1 : Real.exp (-(β * T)) ≤ Real.exp (-(150 / 1000000)) := Real.exp_le_exp.mpr (by linarith)
    have h2 : Real.exp (-(150 / 1000000 : ℝ)) ≤ 1 / (1 + 150 / 1000000) := by
      rw [Real.exp_neg, ← one_div]
      exact one_div_le_one_div_of_le (by norm_num) (by linarith [Real.add_one_le_exp (150 / 1000000 : ℝ)])
    have h3 : (1 : ℝ) / (1 + 150 / 1000000) ≤ 1 - 149 / 1000000 := by norm_num
    linarith
  have q0 := Real.exp_pos (-(β * T))
  set q := Real.exp (-(β * T)) with hqdef
  refine ⟨r1, r2, hr1, hr2, ?_, ?_⟩
  · -- r1 = q v with v near -2 cos θ
    have hv : |r1| ≤ q * (2 * |Real.cos θ| + 800 / 2 ^ 40) := by
      have h1 : |r1| ≤ |r1 - q * (Real.cos θ * -2)| + |q * (Real.cos θ * -2)| := by simpa using abs_add_le (r1 - q * (Real.cos θ * -2)) (q * (Real.cos θ * -2))
      have h2 : |q * (Real.cos θ * -2)| = q * (2 * |Real.cos θ|) := by rw [abs_mul, abs_mul, abs_of_pos q0, show |(-2 : ℝ)| = 2 by norm_num]; ring
      rw [h2] at h1
      linarith
    have hsq : r1 ^ 2 ≤ (q * (2 * |Real.cos θ| + 800 / 2 ^ 40)) ^ 2 := by
      rw [← sq_abs r1]
      exact pow_le_pow_left₀ (abs_nonneg _) hv 2
    have hlow : q * q * (1 - 21 / 2 ^ 40) ≤ r2 := by
      have := (abs_le.mp e2).1
      norm_num at this ⊢
      linarith
    have hcs := Real.sin_sq_add_cos_sq θ
    have hcos2 : |Real.cos θ| * |Real.cos θ| ≤ 1 - (19 / 100000) ^ 2 := by
      rw [← sq, sq_abs]
      have := mul_le_mul hsl hsl (by norm_num) (by linarith)
      nlinarith
    have hb : (2 * |Real.cos θ| + 800 / 2 ^ 40) ^ 2 ≤ 4 * (1 - 21 / 2 ^ 40) := by
      have e : (2 * |Real.cos θ| + 800 / 2 ^ 40) ^ 2 = 4 * (|Real.cos θ| * |Real.cos θ|) + 4 * (800 / 2 ^ 40) * |Real.cos θ| + (800 / 2 ^ 40) ^ 2 := by ring
      rw [e]
      have : 4 * (800 / 2 ^ 40) * |Real.cos θ| ≤ 4 * (800 / 2 ^ 40) * 1 := mul_le_mul_of_nonneg_left c1 (by norm_num)
      norm_num at *
      linarith
    calc r1 ^ 2 ≤ (q * (2 * |Real.cos θ| + 800 / 2 ^ 40)) ^ 2 := hsq
      _ = q * q * (2 * |Real.cos θ| + 800 / 2 ^ 40) ^ 2 := by ring
      _ ≤ q * q * (4 * (1 - 21 / 2 ^ 40)) := mul_le_mul_of_nonneg_left hb (by positivity)
      _ = 4 * (q * q * (1 - 21 / 2 ^ 40)) := by ring
      _ ≤ 4 * r2 := by linarith
  · have := (abs_le.mp e2).2
    have hqq : q * q ≤ q * 1 := mul_le_mul_of_nonneg_left (by linarith) q0.le
    norm_num at this
    linarith

/-! ## The numerators -/

/-- The second coefficient of a numerator is at most the period times five. -/
theorem Tone.numer {β : ℝ} (hb : CR β (bandwidthTerm (Cpx.ofRe cf)) 1 0) (hβ : 150 ≤ β) (hβT : β * T ≤ 1) {s : F} {σ : ℝ} (hs : Is s σ) (h0 : 0 ≤ σ) (h3 : σ ≤ 3)
    {f : Cpx F → Cpx F → Cpx F} (hf : f = Cpx.add ∨ f = Cpx.sub) :
    Pw 0 ((Cpx.neg (f (((((((Cpx.ofRe cf).smul 2.0).smul Flt.pi).smul (1.0 / (Flt.ofNat sr : F))).cos.smul 2.0).smul (1.0 / (Flt.ofNat sr : F))).div
        ((bandwidthTerm (Cpx.ofRe cf)).smul (1.0 / (Flt.ofNat sr : F))).exp)
      ((((((((Cpx.ofRe cf).smul 2.0).smul Flt.pi).smul (1.0 / (Flt.ofNat sr : F))).sin.smul (1.0 / (Flt.ofNat sr : F))).smul 2.0).smul s).div
        ((bandwidthTerm (Cpx.ofRe cf)).smul (1.0 / (Flt.ofNat sr : F))).exp))).sdiv 2.0).re := by
  obtain ⟨d, sB⟩ := h.decay hb hβ hβT
  obtain ⟨hT1, hT2⟩ := h.T_bounds
  have hT0 := h.scT.pos
  have sT := h.scT.mono (n := 100) (by norm_num)
  have hβT0 : 0 ≤ β * T := by positivity
  have aT := h.angle_abs (ρ := 2) (by norm_num) (by norm_num)
  have hcos := (h.angle.cos (by linarith) (by norm_num) (by norm_num)).mono (l := 25) (by norm_num) (by norm_num)
  have hsin := (h.angle.sin (by linarith) (by norm_num) (by norm_num)).mono (l := 25) (by norm_num) (by norm_num)
  set θ := 2 * Real.pi * (c * T) with hθ
  have c1 := Real.abs_cos_le_one θ
  have c2 := Real.abs_sin_le_one θ
  have w7 := d.exp (by rw [abs_of_nonneg hβT0]; linarith) (by norm_num) (by norm_num)
  have e3 : Real.exp (β * T) ≤ 3 := by
    have h9 := Real.exp_one_lt_d9
    have := Real.exp_le_exp.mpr hβT
    norm_num at h9; linarith
  have e1 := Real.one_le_exp hβT0
  have sE : Sc 100 (Real.exp (β * T)) := by
    refine (show Sc 2 _ from ⟨?_, ?_⟩).mono (by norm_num)
    · norm_num; linarith
    · norm_num; linarith
  have m2 : Nr 1 (2.0 : F) 2 0 := Nr.exact val_2
  have a1 := CR.smul sc1 sc1 hcos m2 (Y := 2) c1 (by norm_num) (mul_one _) rfl (m := 52)
  have k1 : |Real.cos θ * 2| ≤ 2 := by rw [abs_mul, show |(2 : ℝ)| = 2 by norm_num]; linarith
  have a2 := CR.smul sc1 sT a1 h.t_near (Y := 1) k1 (by norm_num) (one_mul _) (mul_one _) (m := 56)
  have a3 := CR.div (m := 800) sT sE a2 w7 k1 rfl
  have b1 := CR.smul sc1 sT hsin h.t_near (Y := 1) c2 (by norm_num) (one_mul _) (mul_one _) (m := 28)
  have b2 := CR.smul sT sc1 b1 m2 (Y := 2) c2 (by norm_num) (mul_one _) rfl (m := 58)
  have k2 : |Real.sin θ * 2| ≤ 2 := by rw [abs_mul, show |(2 : ℝ)| = 2 by norm_num]; linarith
  have hσ : |σ| ≤ 3 := by rw [abs_of_nonneg h0]; exact h3
  have b3 := CR.smul sT sc1 b2 (Nr.exact hs) k2 hσ (mul_one _) rfl (m := 176)
  have k3 : |Real.sin θ * 2 * σ| ≤ 6 := by rw [abs_mul]; exact (mul_le_mul k2 hσ (abs_nonneg _) (by norm_num)).trans (by norm_num)
  have b4 := CR.div (m := 2400) sT sE b3 w7 k3 rfl
  have sD : Sc 100 (T / Real.exp (β * T)) := by
    refine (show Sc 22 _ from ⟨?_, ?_⟩).mono (by norm_num)
    · rw [le_div_iff₀ (by linarith)]; norm_num; linarith
    · rw [div_le_iff₀ (by linarith)]; norm_num; linarith
  have hsD : T / Real.exp (β * T) ≤ 1 / 1000 := by
    rw [div_le_iff₀ (by linarith)]; linarith
  have fin : ∀ {g : Cpx F} {x : ℝ}, CR (T / Real.exp (β * T)) g x 3201 → |x| ≤ 8 → Pw 0 ((Cpx.neg g).sdiv 2.0).re := by
    intro g x hg hx
    obtain ⟨y, hy, hye⟩ := CR.sdiv2 sD hg.neg (by rw [abs_neg]; linarith) (by norm_num)
    refine ⟨y, hy, ?_⟩
    have h1 : |y| ≤ |y - T / Real.exp (β * T) * (-x / 2)| + |T / Real.exp (β * T) * (-x / 2)| := by
      simpa using abs_add_le (y - T / Real.exp (β * T) * (-x / 2)) (T / Real.exp (β * T) * (-x / 2))
    have h2 : |T / Real.exp (β * T) * (-x / 2)| ≤ 1 / 1000 * 4 := by
      rw [abs_mul, abs_of_pos sD.pos, abs_div, abs_neg, show |(2 : ℝ)| = 2 by norm_num]
      exact mul_le_mul hsD (by linarith) (by positivity) (by norm_num)
    have h3 : T / Real.exp (β * T) * ((4 * 3201 + 1) / 2 ^ 40) ≤ 1 / 1000 * ((4 * 3201 + 1) / 2 ^ 40) := mul_le_mul_of_nonneg_right hsD (by positivity)
    norm_num at *
    linarith
  rcases hf with rfl | rfl
  · exact fin ((CR.add (sD.mono (by norm_num)) a3 b4 ((abs_add_le _ _).trans (by linarith)) (by norm_num)).mono sD.pos.le (by norm_num)) ((abs_add_le _ _).trans (by linarith))
  · exact fin ((CR.sub (sD.mono (by norm_num)) a3 b4 ((abs_sub _ _).trans (by linarith)) (by norm_num)).mono sD.pos.le (by norm_num)) ((abs_sub _ _).trans (by linarith))

/-- All coefficients of a band are of ordinary size, and its poles are stable. -/
theorem Tone.tame : TameBand (bandCoeffs sr cf) := by
  obtain ⟨β, hb, hβ, hβT⟩ := h.bandwidth
  have hT0 := h.scT.pos
  have hβT0 : 0 ≤ β * T := by positivity
  have aT := h.angle_abs (ρ := 2) (by norm_num) (by norm_num)
  have hcos := (h.angle.cos (by linarith) (by norm_num) (by norm_num)).mono (l := 25) (by norm_num) (by norm_num)
  have hsin := (h.angle.sin (by linarith) (by norm_num) (by norm_num)).mono (l := 25) (by norm_num) (by norm_num)
  have c1 := Real.abs_cos_le_one (2 * Real.pi * (c * T))
  have c2 := Real.abs_sin_le_one (2 * Real.pi * (c * T))
  have q0 := (Real.exp_pos (-(β * T))).le
  have q1 : Real.exp (-(β * T)) ≤ 1 := Real.exp_le_one_iff.mpr (by linarith)
  have i1 := h.x01
  have i2 := h.x02 hb hβ hβT
  have fac1 := fun {s : F} {σ : ℝ} (hs : Is s σ) (h0 : 0 ≤ σ) (h3 : σ ≤ 3) =>
    h.factor q0 q1 i1 i2 (rterm_sub hcos hsin c1 c2 hs h0 h3).1 (rterm_sub hcos hsin c1 c2 hs h0 h3).2
  have fac2 := fun {s : F} {σ : ℝ} (hs : Is s σ) (h0 : 0 ≤ σ) (h3 : σ ≤ 3) =>
    h.factor q0 q1 i1 i2 (rterm_add hcos hsin c1 c2 hs h0 h3).1 (rterm_add hcos hsin c1 c2 hs h0 h3).2
  obtain ⟨σ1, s1, s1a, s1b⟩ := root_minus (F := F) val_three_halves.2
  obtain ⟨σ2, s2, s2a, s2b⟩ := root_plus (F := F) val_three_halves.2
  obtain ⟨σ3, s3, s3a, s3b⟩ := root_plus (F := F) val_three_halves.1
  obtain ⟨σ4, s4, s4a, s4b⟩ := root_minus' (F := F) val_three_halves.1
  have f1 := fac1 s1 s1a s1b
  have f2 := fac2 s1 s1a s1b
  have f3 := fac1 s2 s2a s2b
  have f4 := fac2 s2 s2a s2b
  have g := ((CB.div (((f1.mul f2 (by norm_num)).mul f3 (by norm_num)).mul f4 (by norm_num)) ((h.x5 hb hβ hβT).pow4 (by norm_num)) (by norm_num)).norm (by norm_num))
  obtain ⟨G, hG, hG1, hG2⟩ := g
  have hG' : 1 / 2 ^ 147 ≤ |G| := by
    have hp : (0 : ℝ) < 1 / 2 ^ (32 + 32 + 1 + 32 + 1 + 32 + 1 + (4 * 3 + 2) + 1 + 1) := by positivity
    rw [abs_of_pos (lt_of_lt_of_le hp hG1)]
    exact hG1
  have n1 := h.numer hb hβ hβT s3 s3a s3b (f := Cpx.add) (.inl rfl)
  have n2 := h.numer hb hβ hβT s3 s3a s3b (f := Cpx.sub) (.inr rfl)
  have n3 := h.numer hb hβ hβT s4 s4a s4b (f := Cpx.add) (.inl rfl)
  have n4 := h.numer hb hβ hβT s4 s4a s4b (f := Cpx.sub) (.inr rfl)
  have pT : Pw 0 (1.0 / (Flt.ofNat sr : F)) := by
    obtain ⟨t1, t2⟩ := h.T_bounds
    obtain ⟨y, hy, he⟩ := h.t_near
    refine ⟨y, hy, ?_⟩
    have h1 := (abs_le.mp he).1
    have h2 := (abs_le.mp he).2
    rw [abs_le]
    norm_num at *
    constructor <;> linarith
  have pZ : Pw 0 (0.0 : F) := ⟨0, val_0, by norm_num⟩
  exact
    { g0 := (Pw.div (n := 147) pT hG hG' (by norm_num)).mono (by norm_num)
      g1 := (Pw.div (n := 147) n1 hG hG' (by norm_num)).mono (by norm_num)
      g2 := (Pw.div (n := 147) pZ hG hG' (by norm_num)).mono (by norm_num)
      k0 := pT.mono (by norm_num)
      k2 := n2.mono (by norm_num)
      k3 := n3.mono (by norm_num)
      k4 := n4.mono (by norm_num)
      kz := pZ.mono (by norm_num)
      den := h.stable hb hβ hβT }

end

end Visqol
