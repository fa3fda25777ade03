import Verif.Lemmas.IeeeErb
import Mathlib.Analysis.Real.Pi.Bounds

/-! # Floating point: the coefficients of one band of the filter bank -/

set_option linter.unusedSectionVars false

namespace Visqol
open Ieee

variable {F : Type} [Flt F] [Ieee F] [Libm F]

/-- A centre frequency between 49 Hz and 0.495 times the sample rate. -/
structure Tone (sr : Nat) (cf : F) (c T : ℝ) : Prop where
  val : Is cf c
  low : 49 ≤ c
  high : c * T ≤ 99 / 200
  period : T = 1 / sr
  rate : 1000 ≤ sr
  rateHigh : sr ≤ 1000000

theorem sc1 : Sc 100 (1 : ℝ) := Sc.one.mono (by norm_num)

theorem val_3 : Is (3.0 : F) 3 := by
  have := val_litnat (F := F) (m := 30) (e := 1) (k := 3) (by norm_num) (by norm_num); exact_mod_cast this
theorem val_4 : Is (4.0 : F) 4 := by
  have := val_litnat (F := F) (m := 40) (e := 1) (k := 4) (by norm_num) (by norm_num); exact_mod_cast this

theorem pi_near : Nr 1 (Flt.pi : F) Real.pi 1 := by
  obtain ⟨y, h1, h2⟩ := Libm.pi_acc (F := F)
  exact ⟨y, h1, by rw [one_mul, one_mul]; exact h2⟩

theorem pi_le4 : |Real.pi| ≤ 4 := by rw [abs_of_pos Real.pi_pos]; exact Real.pi_le_four

section
variable {sr : Nat} {cf : F} {c T : ℝ} (h : Tone sr cf c T)
include h

theorem Tone.T_bounds : 1 / 1000000 ≤ T ∧ T ≤ 1 / 1000 := by
  have h1 : (1000 : ℝ) ≤ sr := by exact_mod_cast h.rate
  have h2 : (sr : ℝ) ≤ 1000000 := by exact_mod_cast h.rateHigh
  rw [h.period]
  exact ⟨one_div_le_one_div_of_le (by linarith) h2, one_div_le_one_div_of_le (by norm_num) h1⟩

theorem Tone.scT : Sc 20 T := by
  obtain ⟨h1, h2⟩ := h.T_bounds
  constructor <;> norm_num <;> linarith

theorem Tone.c_le : c ≤ 500000 := by
  obtain ⟨h1, h2⟩ := h.T_bounds
  by_contra hc
  have := h.high
  have := mul_le_mul_of_nonneg_left h1 (show 0 ≤ c by linarith [h.low])
  linarith

theorem Tone.scC : Sc 20 c := by
  have := h.low
  have := h.c_le
  constructor <;> norm_num <;> linarith

theorem Tone.t_near : Nr T (1.0 / (Flt.ofNat sr : F)) 1 1 := by
  have h1 : (1000 : ℝ) ≤ sr := by exact_mod_cast h.rate
  have hsr : Is (Flt.ofNat sr : F) (sr : ℝ) := val_nat (h.rateHigh.trans (by norm_num))
  have h2 := Nr.exact' (s := (sr : ℝ)) (by linarith) hsr
  rw [div_self (by linarith : (sr : ℝ) ≠ 0)] at h2
  have h3 := Nr.div (s := 1) (t := sr) one_pos (by linarith) (by rw [← h.period]; exact h.scT.mono (by norm_num)) (Nr.exact (F := F) val_1) h2 (X := 1) (by norm_num)
    (by norm_num) (by norm_num) le_rfl (by norm_num) (by norm_num)
  rw [← h.period, div_one] at h3
  exact h3.mono h.scT.pos.le (by norm_num)

theorem Tone.c_near : Nr c cf 1 0 := by
  have := Nr.exact' h.scC.pos h.val
  rwa [div_self h.scC.pos.ne'] at this

theorem Tone.cf_near : CR c (Cpx.ofRe cf) 1 0 := ⟨h.c_near, val_0⟩

end

theorem lit_Nr {m e : ℕ} {x : ℝ} (hx : (m : ℝ) / 10 ^ e = x) (h1 : 1 / 1000000 ≤ x) (h2 : x ≤ 1000) :
    Nr x (Flt.toOfScientific.ofScientific m true e : F) 1 1 := by
  obtain ⟨y, hy, he⟩ := lit_near (F := F) hx h1 h2
  refine ⟨y, hy, ?_⟩
  rw [mul_one]
  refine he.trans ?_
  rw [mul_comm]
  exact mul_le_mul_of_nonneg_left (by norm_num) (by linarith)

theorem Nr.to_scale {s t x y k m : ℝ} {a : F} (h : Nr s a x k) (ht : 0 < t) (hk : 0 ≤ k) (hs : s ≤ t) (hy : s * x / t = y) (hm : k ≤ m) :
    Nr t a y m := by
  have := Nr.rescale (t := t) (c := 1) ht hk h (by linarith)
  rw [hy, one_mul] at this
  exact this.mono ht.le hm

/-- The bandwidth: between 150 and the sample rate. -/
theorem Tone.bandwidth {sr : Nat} {cf : F} {c T : ℝ} (h : Tone sr cf c T) :
    ∃ β, CR β (bandwidthTerm (Cpx.ofRe cf)) 1 0 ∧ 150 ≤ β ∧ β * T ≤ 1 := by
  have hc := h.low
  have hc5 := h.c_le
  obtain ⟨hT1, hT2⟩ := h.T_bounds
  have hearQ : Nr (926449 / 100000) (earQ : F) 1 1 := lit_Nr (by norm_num) (by norm_num) (by norm_num)
  have hminBw : Nr (247 / 10) (minBw : F) 1 1 := lit_Nr (by norm_num) (by norm_num) (by norm_num)
  have sx : Sc 100 (c / (926449 / 100000)) := by
    refine (show Sc 20 _ from ?_).mono (by norm_num)
    constructor <;> norm_num <;> linarith
  have hx0 := sx.pos
  -- the quotient
  have q1 : CR (c / (926449 / 100000)) ((Cpx.ofRe cf).sdiv earQ) 1 9 := by
    obtain ⟨v, hv, hve⟩ := id hearQ
    have hv0 : v ≠ 0 := by
      rintro rfl
      norm_num at hve
    refine ⟨?_, Is.zero_div val_0 hv hv0⟩
    have := Nr.div h.scC.pos (by norm_num) (sx.mono (by norm_num)) h.c_near hearQ (X := 1) (by norm_num) (by norm_num) (by norm_num) (by norm_num)
      (by norm_num) (by norm_num)
    rw [div_one] at this
    exact this.mono hx0.le (by norm_num)
  have q2 := CR.pow1 sx q1 (e := 1.0) val_1 (by norm_num) (by norm_num)
  -- the constant
  have p1 : Nr (247 / 10) (Flt.powf (minBw : F) 1.0) 1 3 := by
    obtain ⟨y, hy, hye⟩ := hminBw
    have y1 := (abs_le.mp hye).1
    have y2 := (abs_le.mp hye).2
    norm_num at y1 y2
    have hs : Sc 10 y := by constructor <;> norm_num <;> linarith
    have hs5 := hs.mono (n := 500) (by norm_num)
    obtain ⟨z, hz, hze⟩ := Libm.powf_acc (minBw : F) 1.0 y 1 hy val_1 hs.pos (by rw [Real.rpow_one]; exact hs5.1) (by rw [Real.rpow_one]; exact hs5.2)
    rw [Real.rpow_one] at hze
    refine ⟨z, hz, ?_⟩
    have z1 := (abs_le.mp hze).1
    have z2 := (abs_le.mp hze).2
    clear hs5 hs hze hye
    norm_num at z1 z2
    rw [abs_le]
    constructor <;> norm_num <;> linarith
  -- the sum
  have hS : Sc 100 (c / (926449 / 100000) + 247 / 10) := by
    refine (show Sc 20 _ from ?_).mono (by norm_num)
    constructor <;> norm_num <;> linarith
  have hS0 := hS.pos
  have q3 : CR (c / (926449 / 100000) + 247 / 10) ((((Cpx.ofRe cf).sdiv earQ).powf 1.0).sadd (Flt.powf minBw 1.0)) 1 21 := by
    refine ⟨?_, q2.2⟩
    have a1 := q2.1.to_scale hS0 (by norm_num) (by linarith) rfl le_rfl
    have a2 := p1.to_scale hS0 (by norm_num) (by linarith) rfl le_rfl
    have e : c / (926449 / 100000) * 1 / (c / (926449 / 100000) + 247 / 10) + 247 / 10 * 1 / (c / (926449 / 100000) + 247 / 10) = 1 := by
      rw [mul_one, mul_one, ← add_div, div_self hS0.ne']
    have a3 := Nr.add (hS.mono (by norm_num)) a1 a2 (by rw [e]; norm_num) (by norm_num)
    rw [e] at a3
    exact a3.mono hS0.le (by norm_num)
  have hdd : Is ((1.0 : F) / 1.0) 1 := by
    have := Is.div (F := F) (a := 1.0) (b := 1.0) val_1 val_1 (by norm_num)
    rw [div_one, rnd_one] at this
    exact this
  have q4 := CR.pow1 hS q3 hdd (by norm_num) (by norm_num)
  -- the factor
  have f0 : Nr (1019 / 1000) (1.019 : F) 1 1 := lit_Nr (by norm_num) (by norm_num) (by norm_num)
  have s19 : Sc 100 (1019 / 1000 : ℝ) := by
    refine (show Sc 20 _ from ?_).mono (by norm_num)
    constructor <;> norm_num
  have f1 : Nr (1019 / 1000) ((1.019 : F) * 2.0) 2 4 := Nr.mulA s19 sc1 f0 (Nr.exact val_2) (X := 1) (Y := 2) (by norm_num) (by norm_num) (mul_one _) (by norm_num)
  have f2 : Nr (1019 / 1000) ((1.019 : F) * 2.0 * Flt.pi) (2 * Real.pi) 20 := Nr.mulA s19 sc1 f1 pi_near (X := 2) (by norm_num) pi_le4 (mul_one _) rfl
  have hpi : |2 * Real.pi| ≤ 8 := by
    rw [abs_mul, abs_of_pos (by norm_num : (0 : ℝ) < 2)]; linarith [pi_le4]
  have q5 : CR ((c / (926449 / 100000) + 247 / 10) * (1019 / 1000)) (bandwidthTerm (Cpx.ofRe cf)) (2 * Real.pi) 300 :=
    CR.smul hS s19 q4 f2 (X := 1) (by norm_num) hpi rfl (one_mul _)
  obtain ⟨⟨β, hβ, hβe⟩, hi⟩ := q5
  have b1 := (abs_le.mp hβe).1
  have b2 := (abs_le.mp hβe).2
  clear hβe
  have g1 := Real.pi_gt_d2
  have g2 := Real.pi_lt_d2
  norm_num at g1 g2
  have hW0 : 0 < (c / (926449 / 100000) + 247 / 10) * (1019 / 1000) := by positivity
  set W := (c / (926449 / 100000) + 247 / 10) * (1019 / 1000) with hW
  have c1 : W * (2 * Real.pi) ≤ W * (63 / 10) := mul_le_mul_of_nonneg_left (by linarith) hW0.le
  have c2 : W * 6 ≤ W * (2 * Real.pi) := mul_le_mul_of_nonneg_left (by linarith) hW0.le
  norm_num at b1 b2
  have d1 : β ≤ W * (631 / 100) := by linarith
  have d2 : W * (599 / 100) ≤ β := by linarith
  have lowβ : 150 ≤ β := by
    have : 29 ≤ W := by rw [hW]; norm_num; linarith
    linarith
  refine ⟨β, ⟨?_, hi⟩, lowβ, ?_⟩
  · have := Nr.exact' (s := β) (by linarith) hβ
    rwa [div_self (by linarith : β ≠ 0)] at this
  · have hT0 : 0 ≤ T := by linarith
    have := mul_le_mul_of_nonneg_right d1 hT0
    have e : W * (631 / 100) * T = (c * T) * (100000 / 926449 * (1019 / 1000) * (631 / 100)) + T * (247 / 10 * (1019 / 1000) * (631 / 100)) := by
      rw [hW]; ring
    rw [e] at this
    have := h.high
    have c3 : (c * T) * (100000 / 926449 * (1019 / 1000) * (631 / 100)) ≤ 99 / 200 * (100000 / 926449 * (1019 / 1000) * (631 / 100)) :=
      mul_le_mul_of_nonneg_right this (by norm_num)
    norm_num at *
    linarith

/-! ## Angles -/

section
variable {sr : Nat} {cf : F} {c T : ℝ} (h : Tone sr cf c T)
include h

theorem Tone.cT : 49 / 1000000 ≤ c * T ∧ c * T ≤ 99 / 200 := by
  obtain ⟨h1, h2⟩ := h.T_bounds
  refine ⟨?_, h.high⟩
  have := mul_le_mul h.low h1 (by norm_num) (by linarith [h.low])
  linarith

theorem Tone.sin_low : 19 / 100000 ≤ Real.sin (2 * Real.pi * (c * T)) := by
  obtain ⟨h1, h2⟩ := h.cT
  have hp := Real.pi_pos
  rcases le_total (c * T) (1 / 4) with hle | hle
  · have := Real.mul_le_sin (x := 2 * Real.pi * (c * T)) (by positivity) (by nlinarith)
    have e : 2 / Real.pi * (2 * Real.pi * (c * T)) = 4 * (c * T) := by field_simp; ring
    rw [e] at this
    linarith
  · rw [← Real.sin_pi_sub]
    have := Real.mul_le_sin (x := Real.pi - 2 * Real.pi * (c * T)) (by nlinarith) (by nlinarith)
    have e : 2 / Real.pi * (Real.pi - 2 * Real.pi * (c * T)) = 2 - 4 * (c * T) := by field_simp; ring
    rw [e] at this
    linarith

/-- The angle of the centre frequency. -/
theorem Tone.angle : CR 1 ((((Cpx.ofRe cf).smul 2.0).smul Flt.pi).smul (1.0 / (Flt.ofNat sr : F))) (2 * Real.pi * (c * T)) 22 := by
  have hp : |2 * Real.pi| ≤ 8 := by rw [abs_mul, abs_of_pos (by norm_num : (0 : ℝ) < 2)]; linarith [pi_le4]
  have sC := h.scC.mono (n := 100) (by norm_num)
  have sT := h.scT.mono (n := 100) (by norm_num)
  have a1 : CR c ((Cpx.ofRe cf).smul 2.0) 2 2 := CR.smul sC sc1 h.cf_near (Nr.exact (F := F) val_2) (X := 1) (Y := 2) (by norm_num) (by norm_num) (mul_one _) (one_mul _)
  have a2 : CR c (((Cpx.ofRe cf).smul 2.0).smul Flt.pi) (2 * Real.pi) 12 := CR.smul sC sc1 a1 pi_near (X := 2) (by norm_num) pi_le4 (mul_one _) rfl
  have a3 : CR (c * T) ((((Cpx.ofRe cf).smul 2.0).smul Flt.pi).smul (1.0 / (Flt.ofNat sr : F))) (2 * Real.pi) 22 :=
    CR.smul sC sT a2 h.t_near (X := 8) (Y := 1) hp (by norm_num) rfl (mul_one _)
  exact a3.to_one (by norm_num) (by linarith [h.high]) (by ring)

/-- `r * i * cf * pi * t`. -/
theorem Tone.imag {r : F} {ρ : ℝ} (hr : Is r ρ) (h0 : 0 ≤ ρ) (h4 : ρ ≤ 4) :
    Is ((((Cpx.smul ⟨0.0, 1.0⟩ r).mul (Cpx.ofRe cf)).smul Flt.pi).smul (1.0 / (Flt.ofNat sr : F))).re 0 ∧
    Nr 1 ((((Cpx.smul ⟨0.0, 1.0⟩ r).mul (Cpx.ofRe cf)).smul Flt.pi).smul (1.0 / (Flt.ofNat sr : F))).im (ρ * Real.pi * (c * T)) 45 := by
  have sC := h.scC.mono (n := 100) (by norm_num)
  have sT := h.scT.mono (n := 100) (by norm_num)
  have hρ : |ρ| ≤ 4 := by rw [abs_of_nonneg h0]; exact h4
  have hρπ : |ρ * Real.pi| ≤ 16 := by
    rw [abs_mul]
    have := mul_le_mul hρ pi_le4 (abs_nonneg _) (by norm_num)
    linarith
  obtain ⟨π', hπ⟩ := (pi_near (F := F)).is
  obtain ⟨t', ht⟩ := h.t_near.is
  have b1 : Nr 1 ((1.0 : F) * r) ρ 2 := Nr.mulA sc1 sc1 (Nr.exact val_1) (Nr.exact hr) (X := 1) (by norm_num) hρ (mul_one _) (one_mul _)
  obtain ⟨b', hb⟩ := b1.is
  have z1 : Is ((0.0 : F) * r) 0 := Is.mul_zero_left val_0 hr
  have b2 : Nr c ((1.0 : F) * r * cf) ρ 4 := Nr.mulA sc1 sC b1 h.c_near (Y := 1) hρ (by norm_num) (one_mul _) (mul_one _)
  have b3 : Nr c ((0.0 : F) * r * 0.0 + 1.0 * r * cf) ρ 5 := by
    have := Nr.add (sC.mono (by norm_num)) (Nr.zero (s := c) (z1.mul_zero_left val_0)) b2 (by rw [zero_add]; linarith) (by norm_num)
    rw [zero_add] at this
    exact this.mono h.scC.pos.le (by norm_num)
  have b4 : Nr c (((0.0 : F) * r * 0.0 + 1.0 * r * cf) * Flt.pi) (ρ * Real.pi) 26 := Nr.mulA sC sc1 b3 pi_near hρ pi_le4 (mul_one _) rfl
  have b5 : Nr (c * T) (((0.0 : F) * r * 0.0 + 1.0 * r * cf) * Flt.pi * (1.0 / (Flt.ofNat sr : F))) (ρ * Real.pi) 45 :=
    Nr.mulA sC sT b4 h.t_near (Y := 1) hρπ (by norm_num) rfl (mul_one _)
  refine ⟨?_, ?_⟩
  · exact Is.mul_zero_left (Is.mul_zero_left (Is.sub_zeros (z1.mul_zero_left h.val) (hb.mul_zero_right val_0)) hπ) ht
  · exact b5.to_one (by norm_num) (by linarith [h.high]) (by ring)

theorem Tone.angle_abs {ρ : ℝ} (h0 : 0 ≤ ρ) (h4 : ρ ≤ 4) : |ρ * Real.pi * (c * T)| ≤ 16 := by
  obtain ⟨h1, h2⟩ := h.cT
  have hp := Real.pi_le_four
  have hpp := Real.pi_pos
  rw [abs_of_nonneg (mul_nonneg (mul_nonneg h0 hpp.le) (by linarith))]
  have := mul_le_mul h4 hp hpp.le (by norm_num)
  have := mul_le_mul this h2 (by linarith) (by norm_num)
  linarith

/-- `exp(4 i pi cf t)`. -/
theorem Tone.xExp : CN 1 ((((Cpx.smul ⟨0.0, 1.0⟩ 4.0).mul (Cpx.ofRe cf)).smul Flt.pi).smul (1.0 / (Flt.ofNat sr : F))).exp
    (Real.cos (4 * Real.pi * (c * T))) (Real.sin (4 * Real.pi * (c * T))) 50 := by
  obtain ⟨h1, h2⟩ := h.imag (val_4 (F := F)) (by norm_num) (by norm_num)
  have := CN.exp (Nr.exact h1) h2 le_rfl (by norm_num) ((h.angle_abs (ρ := 4) (by norm_num) (by norm_num)).trans (by norm_num)) le_rfl (by norm_num)
    (by norm_num) (by norm_num)
  rw [Real.exp_zero, one_mul, one_mul] at this
  exact this.mono (by norm_num) (by norm_num)

/-- The decay over one sample. -/
theorem Tone.decay {β : ℝ} (hb : CR β (bandwidthTerm (Cpx.ofRe cf)) 1 0) (hβ : 150 ≤ β) (hβT : β * T ≤ 1) :
    CR 1 ((bandwidthTerm (Cpx.ofRe cf)).smul (1.0 / (Flt.ofNat sr : F))) (β * T) 3 ∧ Sc 100 β := by
  obtain ⟨h1, h2⟩ := h.T_bounds
  have sB : Sc 100 β := by
    refine (show Sc 20 _ from ?_).mono (by norm_num)
    have : β ≤ 1000000 := by
      by_contra hc
      have := mul_le_mul_of_nonneg_left h1 (show 0 ≤ β by linarith)
      linarith
    constructor <;> norm_num <;> linarith
  have sT := h.scT.mono (n := 100) (by norm_num)
  have a : CR (β * T) ((bandwidthTerm (Cpx.ofRe cf)).smul (1.0 / (Flt.ofNat sr : F))) 1 3 :=
    CR.smul sB sT hb h.t_near (X := 1) (Y := 1) (by norm_num) (by norm_num) rfl (one_mul _)
  exact ⟨a.to_one (by norm_num) hβT (mul_one _), sB⟩

end

end Visqol
