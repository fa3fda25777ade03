import Verif.Lemmas.IeeeNear

/-! # Floating point: complex numbers of known order of magnitude -/

set_option linter.unusedSectionVars false

namespace Visqol
open Ieee

variable {F : Type} [Flt F] [Ieee F]

/-- A complex number whose modulus has a known order of magnitude. -/
def CB (lo hi : ℕ) (a : Cpx F) : Prop := ∃ z : ℂ, Is a.re z.re ∧ Is a.im z.im ∧ 1 / 2 ^ lo ≤ ‖z‖ ∧ ‖z‖ ≤ 2 ^ hi

theorem norm_near {s x y k l : ℝ} {a : Cpx F} (h1 : Nr s a.re x k) (h2 : Nr s a.im y l) (hs : 0 ≤ s) :
    ∃ z : ℂ, Is a.re z.re ∧ Is a.im z.im ∧ |‖z‖ - s * ‖(⟨x, y⟩ : ℂ)‖| ≤ s * ((k + l) / 2 ^ 40) := by
  obtain ⟨u, hu, hu'⟩ := h1
  obtain ⟨v, hv, hv'⟩ := h2
  refine ⟨⟨u, v⟩, hu, hv, ?_⟩
  have e : s * ‖(⟨x, y⟩ : ℂ)‖ = ‖((s : ℂ) * ⟨x, y⟩)‖ := by rw [norm_mul, Complex.norm_real, Real.norm_of_nonneg hs]
  rw [e]
  refine (abs_norm_sub_norm_le _ _).trans ((Complex.norm_le_abs_re_add_abs_im _).trans ?_)
  have e1 : ((⟨u, v⟩ : ℂ) - (s : ℂ) * ⟨x, y⟩).re = u - s * x := by simp
  have e2 : ((⟨u, v⟩ : ℂ) - (s : ℂ) * ⟨x, y⟩).im = v - s * y := by simp
  rw [e1, e2, add_div, mul_add]
  exact add_le_add hu' hv'

theorem unit_parts {z : ℂ} (hz : 0 < ‖z‖) : |z.re / ‖z‖| ≤ 1 ∧ |z.im / ‖z‖| ≤ 1 := by
  constructor
  · rw [abs_div, abs_norm, div_le_one hz]; exact Complex.abs_re_le_norm z
  · rw [abs_div, abs_norm, div_le_one hz]; exact Complex.abs_im_le_norm z

theorem Sc.of_bounds {lo hi : ℕ} {s : ℝ} (h1 : 1 / 2 ^ lo ≤ s) (h2 : s ≤ 2 ^ hi) : Sc (max lo hi) s :=
  ⟨(div_le_div_of_nonneg_left (by norm_num) (by positivity) (two_pow_mono (le_max_left _ _))).trans h1,
    h2.trans (two_pow_mono (le_max_right _ _))⟩

theorem half_double {s N : ℝ} {lo hi : ℕ} (h : |N - s| ≤ s / 2) (h1 : 1 / 2 ^ lo ≤ s) (h2 : s ≤ 2 ^ hi) :
    1 / 2 ^ (lo + 1) ≤ N ∧ N ≤ 2 ^ (hi + 1) := by
  have e1 := (abs_le.mp h).1
  have e2 := (abs_le.mp h).2
  constructor
  · have e : (1 : ℝ) / 2 ^ (lo + 1) = 1 / 2 ^ lo / 2 := by rw [pow_succ]; field_simp
    rw [e]; linarith
  · rw [pow_succ]; linarith

theorem CB.mul {l1 h1 l2 h2 : ℕ} {a b : Cpx F} (ha : CB l1 h1 a) (hb : CB l2 h2 b) (hl : max l1 h1 + max l2 h2 ≤ 700) :
    CB (l1 + l2 + 1) (h1 + h2 + 1) (a.mul b) := by
  obtain ⟨z, a1, a2, a3, a4⟩ := ha
  obtain ⟨w, b1, b2, b3, b4⟩ := hb
  have hz : 0 < ‖z‖ := lt_of_lt_of_le (by positivity) a3
  have hw : 0 < ‖w‖ := lt_of_lt_of_le (by positivity) b3
  obtain ⟨z1, z2⟩ := unit_parts hz
  obtain ⟨w1, w2⟩ := unit_parts hw
  have hsc : Sc 700 (‖z‖ * ‖w‖) := ((Sc.of_bounds a3 a4).mul (Sc.of_bounds b3 b4)).mono hl
  have prod : ∀ {p q : F} {x y : ℝ}, Is p x → Is q y → |x / ‖z‖| ≤ 1 → |y / ‖w‖| ≤ 1 → Nr (‖z‖ * ‖w‖) (p * q) (x / ‖z‖ * (y / ‖w‖)) 2 := by
    intro p q x y hp hq hx hy
    have := Nr.mul hz hw hsc (Nr.exact' hz hp) (Nr.exact' hw hq) hx hy (by norm_num) le_rfl le_rfl (by norm_num) (by norm_num) (by norm_num)
    norm_num at this
    exact this
  have pb : ∀ {x y : ℝ}, |x / ‖z‖| ≤ 1 → |y / ‖w‖| ≤ 1 → |x / ‖z‖ * (y / ‖w‖)| ≤ 1 := by
    intro x y hx hy
    rw [abs_mul]
    exact (mul_le_mul hx hy (abs_nonneg _) (by norm_num)).trans (by norm_num)
  have hre := Nr.sub hsc (prod a1 b1 z1 w1) (prod a2 b2 z2 w2) ((abs_sub _ _).trans (by linarith [pb z1 w1, pb z2 w2])) (by norm_num)
  have him := Nr.add hsc (prod a1 b2 z1 w2) (prod a2 b1 z2 w1) ((abs_add_le _ _).trans (by linarith [pb z1 w2, pb z2 w1])) (by norm_num)
  obtain ⟨v, v1, v2, v3⟩ := norm_near (a := a.mul b) hre him hsc.pos.le
  have hone : ‖(⟨z.re / ‖z‖ * (w.re / ‖w‖) - z.im / ‖z‖ * (w.im / ‖w‖), z.re / ‖z‖ * (w.im / ‖w‖) + z.im / ‖z‖ * (w.re / ‖w‖)⟩ : ℂ)‖ = 1 := by
    have e : (⟨z.re / ‖z‖ * (w.re / ‖w‖) - z.im / ‖z‖ * (w.im / ‖w‖), z.re / ‖z‖ * (w.im / ‖w‖) + z.im / ‖z‖ * (w.re / ‖w‖)⟩ : ℂ) =
        ((1 / (‖z‖ * ‖w‖) : ℝ) : ℂ) * (z * w) := by
      apply Complex.ext
      · simp only [Complex.ofReal_re, Complex.ofReal_im, Complex.mul_im, Complex.mul_re]; ring
      · simp only [Complex.ofReal_re, Complex.ofReal_im, Complex.mul_re, Complex.mul_im]; ring
    rw [e, norm_mul, Complex.norm_real, norm_mul, Real.norm_of_nonneg (by positivity)]
    field_simp
  rw [hone, mul_one] at v3
  have hlo : 1 / 2 ^ (l1 + l2) ≤ ‖z‖ * ‖w‖ := by
    rw [pow_add, ← one_div_mul_one_div]
    exact mul_le_mul a3 b3 (by positivity) hz.le
  have hhi : ‖z‖ * ‖w‖ ≤ 2 ^ (h1 + h2) := by
    rw [pow_add]; exact mul_le_mul a4 b4 hw.le (by positivity)
  have hpos := hsc.pos
  obtain ⟨r1, r2⟩ := half_double (N := ‖v‖) (s := ‖z‖ * ‖w‖) (v3.trans (by norm_num; linarith)) hlo hhi
  exact ⟨v, v1, v2, r1, r2⟩

theorem CB.div {l1 h1 l2 h2 : ℕ} {a b : Cpx F} (ha : CB l1 h1 a) (hb : CB l2 h2 b) (hl : max l1 h1 + 2 * max l2 h2 ≤ 700) :
    CB (l1 + h2 + 1) (h1 + l2 + 1) (a.div b) := by
  obtain ⟨z, a1, a2, a3, a4⟩ := ha
  obtain ⟨w, b1, b2, b3, b4⟩ := hb
  have hz : 0 < ‖z‖ := lt_of_lt_of_le (by positivity) a3
  have hw : 0 < ‖w‖ := lt_of_lt_of_le (by positivity) b3
  obtain ⟨z1, z2⟩ := unit_parts hz
  obtain ⟨w1, w2⟩ := unit_parts hw
  have hsc : Sc 700 (‖z‖ * ‖w‖) := ((Sc.of_bounds a3 a4).mul (Sc.of_bounds b3 b4)).mono (by omega)
  have hsw : Sc 700 (‖w‖ * ‖w‖) := ((Sc.of_bounds b3 b4).mul (Sc.of_bounds b3 b4)).mono (by omega)
  have hsd : Sc 700 (‖z‖ * ‖w‖ / (‖w‖ * ‖w‖)) := by
    rw [mul_div_mul_right _ _ hw.ne']
    exact ((Sc.of_bounds a3 a4).div (Sc.of_bounds b3 b4)).mono (by omega)
  have prod : ∀ {s t : ℝ} {p q : F} {x y : ℝ}, 0 < s → 0 < t → Sc 700 (s * t) → Is p x → Is q y → |x / s| ≤ 1 → |y / t| ≤ 1 →
      Nr (s * t) (p * q) (x / s * (y / t)) 2 ∧ |x / s * (y / t)| ≤ 1 := by
    intro s t p q x y hs ht hst hp hq hx hy
    have := Nr.mul hs ht hst (Nr.exact' hs hp) (Nr.exact' ht hq) hx hy (by norm_num) le_rfl le_rfl (by norm_num) (by norm_num) (by norm_num)
    norm_num at this
    refine ⟨this, ?_⟩
    rw [abs_mul]
    exact (mul_le_mul hx hy (abs_nonneg _) (by norm_num)).trans (by norm_num)
  have sum1 : (w.re / ‖w‖) * (w.re / ‖w‖) + (w.im / ‖w‖) * (w.im / ‖w‖) = 1 := by
    have : ‖w‖ * ‖w‖ = w.re * w.re + w.im * w.im := Complex.norm_mul_self_eq_normSq w
    field_simp
    nlinarith
  have hn := Nr.add hsw (prod hw hw hsw b1 b1 w1 w1).1 (prod hw hw hsw b2 b2 w2 w2).1 (by rw [sum1]; norm_num) (by norm_num)
  rw [sum1] at hn
  have nr := Nr.add hsc (prod hz hw hsc a1 b1 z1 w1).1 (prod hz hw hsc a2 b2 z2 w2).1
    ((abs_add_le _ _).trans (by linarith [(prod hz hw hsc a1 b1 z1 w1).2, (prod hz hw hsc a2 b2 z2 w2).2])) (by norm_num)
  have ni := Nr.sub hsc (prod hz hw hsc a2 b1 z2 w1).1 (prod hz hw hsc a1 b2 z1 w2).1
    ((abs_sub _ _).trans (by linarith [(prod hz hw hsc a2 b1 z2 w1).2, (prod hz hw hsc a1 b2 z1 w2).2])) (by norm_num)
  have hre := Nr.div hsc.pos hsw.pos hsd nr hn (X := 2)
    ((abs_add_le _ _).trans (by linarith [(prod hz hw hsc a1 b1 z1 w1).2, (prod hz hw hsc a2 b2 z2 w2).2])) (by norm_num) (by norm_num)
    (by norm_num) (by norm_num) (by norm_num)
  have him := Nr.div hsc.pos hsw.pos hsd ni hn (X := 2)
    ((abs_sub _ _).trans (by linarith [(prod hz hw hsc a2 b1 z2 w1).2, (prod hz hw hsc a1 b2 z1 w2).2])) (by norm_num) (by norm_num)
    (by norm_num) (by norm_num) (by norm_num)
  rw [div_one] at hre him
  obtain ⟨v, v1, v2, v3⟩ := norm_near (a := a.div b) hre him hsd.pos.le
  have hone : ‖(⟨z.re / ‖z‖ * (w.re / ‖w‖) + z.im / ‖z‖ * (w.im / ‖w‖), z.im / ‖z‖ * (w.re / ‖w‖) - z.re / ‖z‖ * (w.im / ‖w‖)⟩ : ℂ)‖ = 1 := by
    have e : (⟨z.re / ‖z‖ * (w.re / ‖w‖) + z.im / ‖z‖ * (w.im / ‖w‖), z.im / ‖z‖ * (w.re / ‖w‖) - z.re / ‖z‖ * (w.im / ‖w‖)⟩ : ℂ) =
        ((1 / (‖z‖ * ‖w‖) : ℝ) : ℂ) * (z * (starRingEnd ℂ) w) := by
      apply Complex.ext
      · simp only [Complex.ofReal_re, Complex.ofReal_im, Complex.mul_im, Complex.mul_re, Complex.conj_re, Complex.conj_im]; ring
      · simp only [Complex.ofReal_re, Complex.ofReal_im, Complex.mul_re, Complex.mul_im, Complex.conj_re, Complex.conj_im]; ring
    rw [e, norm_mul, Complex.norm_real, norm_mul, RCLike.norm_conj, Real.norm_of_nonneg (by positivity)]
    field_simp
  rw [hone, mul_one, mul_div_mul_right _ _ hw.ne'] at v3
  have hlo : 1 / 2 ^ (l1 + h2) ≤ ‖z‖ / ‖w‖ := by
    rw [pow_add, ← one_div_mul_one_div, div_eq_mul_one_div ‖z‖]
    exact mul_le_mul a3 (one_div_le_one_div_of_le hw b4) (by positivity) hz.le
  have hhi : ‖z‖ / ‖w‖ ≤ 2 ^ (h1 + l2) := by
    rw [div_le_iff₀ hw]
    calc ‖z‖ ≤ 2 ^ h1 := a4
      _ = 2 ^ (h1 + l2) * (1 / 2 ^ l2) := by rw [pow_add]; field_simp
      _ ≤ 2 ^ (h1 + l2) * ‖w‖ := mul_le_mul_of_nonneg_left b3 (by positivity)
  have hpos : 0 < ‖z‖ / ‖w‖ := by positivity
  obtain ⟨r1, r2⟩ := half_double (N := ‖v‖) (s := ‖z‖ / ‖w‖) (v3.trans (by norm_num; linarith)) hlo hhi
  exact ⟨v, v1, v2, r1, r2⟩

variable [Libm F]

/-- The modulus, as computed. -/
theorem norm_rel {a : Cpx F} {z : ℂ} (h1 : Is a.re z.re) (h2 : Is a.im z.im) {n : ℕ} (hs : Sc n ‖z‖) (hn : n ≤ 700) :
    ∃ y, Is a.norm y ∧ |y - ‖z‖| ≤ ‖z‖ * (2 / 2 ^ 40) := by
  have hz := hs.pos
  have hb : ‖z‖ ≤ 2 ^ 900 := hs.2.trans (two_pow_mono (by omega))
  obtain ⟨y, hy, he⟩ := Libm.hypot_acc a.re a.im _ _ h1 h2 ((Complex.abs_re_le_norm z).trans hb) ((Complex.abs_im_le_norm z).trans hb)
  have e : Real.sqrt (z.re ^ 2 + z.im ^ 2) = ‖z‖ := by
    rw [Complex.norm_def, Complex.normSq_apply]; ring_nf
  rw [e] at he
  refine ⟨y, hy, he.trans ?_⟩
  have ht : (1 : ℝ) / 2 ^ 900 ≤ ‖z‖ / 2 ^ 40 := by
    rw [le_div_iff₀ (by positivity)]
    refine le_trans ?_ (hs.mono hn).1
    rw [show (900 : ℕ) = 700 + 160 + 40 by norm_num, pow_add, pow_add]
    have : (1 : ℝ) / (2 ^ 700 * 2 ^ 160 * 2 ^ 40) * 2 ^ 40 = 1 / 2 ^ 700 * (1 / 2 ^ 160) := by field_simp
    rw [this]
    exact mul_le_of_le_one_right (by positivity) (by rw [div_le_one (by positivity)]; exact one_le_pow₀ (by norm_num))
  rw [mul_div_assoc', mul_two, add_div]
  linarith

theorem CB.norm {lo hi : ℕ} {a : Cpx F} (h : CB lo hi a) (hl : max lo hi ≤ 700) : Btw (lo + 1) (hi + 1) a.norm := by
  obtain ⟨z, a1, a2, a3, a4⟩ := h
  obtain ⟨y, hy, he⟩ := norm_rel a1 a2 (Sc.of_bounds a3 a4) hl
  have := norm_nonneg z
  obtain ⟨r1, r2⟩ := half_double (N := y) (s := ‖z‖) (he.trans (by norm_num; linarith)) a3 a4
  exact ⟨y, hy, r1, r2⟩

theorem Is.det {a : F} {x y : ℝ} (h1 : Is a x) (h2 : Is a y) : x = y := by
  have := h1.symm.trans h2
  cases this; rfl

/-- The fourth power, as computed in polar form. -/
theorem CB.pow4 {lo hi : ℕ} {a : Cpx F} (h : CB lo hi a) (hl : max lo hi ≤ 100) : CB (4 * lo + 2) (4 * hi + 2) (a.powf 4.0) := by
  obtain ⟨z, a1, a2, a3, a4⟩ := h
  have hsz := Sc.of_bounds a3 a4
  obtain ⟨y, hy, he⟩ := norm_rel a1 a2 hsz (by omega)
  have hz := hsz.pos
  have y1 := (abs_le.mp he).1
  have y2 := (abs_le.mp he).2
  have y3 : ‖z‖ * (1 - 2 / 2 ^ 40) ≤ y := by linarith
  have y4 : y ≤ ‖z‖ * (1 + 2 / 2 ^ 40) := by linarith
  have hy0 : 0 < y := lt_of_lt_of_le (mul_pos hz (by norm_num)) y3
  have h4 : Is (4.0 : F) 4 := by
    show val _ = _
    rw [show (4.0 : F) = Flt.toOfScientific.ofScientific 40 true 1 from rfl, val_sci]
    simp only [if_true]
    rw [show ((40 : ℕ) : ℝ) / 10 ^ 1 = ((4 : ℕ) : ℝ) by norm_num]
    exact rnd_nat F (by norm_num)
  have hpow : y ^ (4 : ℝ) = y ^ 4 := by exact_mod_cast Real.rpow_natCast y 4
  have p1 : ‖z‖ ^ 4 * (9 / 10) ≤ y ^ 4 := by
    calc ‖z‖ ^ 4 * (9 / 10) ≤ ‖z‖ ^ 4 * (1 - 2 / 2 ^ 40) ^ 4 := mul_le_mul_of_nonneg_left (by norm_num) (by positivity)
      _ = (‖z‖ * (1 - 2 / 2 ^ 40)) ^ 4 := by rw [mul_pow]
      _ ≤ y ^ 4 := pow_le_pow_left₀ (mul_nonneg hz.le (by norm_num)) y3 4
  have p2 : y ^ 4 ≤ ‖z‖ ^ 4 * (11 / 10) := by
    calc y ^ 4 ≤ (‖z‖ * (1 + 2 / 2 ^ 40)) ^ 4 := pow_le_pow_left₀ hy0.le y4 4
      _ = ‖z‖ ^ 4 * (1 + 2 / 2 ^ 40) ^ 4 := by rw [mul_pow]
      _ ≤ ‖z‖ ^ 4 * (11 / 10) := mul_le_mul_of_nonneg_left (by norm_num) (by positivity)
  have q1 : (1 : ℝ) / 2 ^ (4 * lo) ≤ ‖z‖ ^ 4 := by
    rw [Nat.mul_comm, pow_mul, ← one_div_pow]
    exact pow_le_pow_left₀ (by positivity) a3 4
  have q2 : ‖z‖ ^ 4 ≤ 2 ^ (4 * hi) := by
    rw [Nat.mul_comm, pow_mul]
    exact pow_le_pow_left₀ hz.le a4 4
  have q0 : 0 < ‖z‖ ^ 4 := by positivity
  have r1 : (1 : ℝ) / 2 ^ 500 ≤ y ^ (4 : ℝ) := by
    rw [hpow]
    calc (1 : ℝ) / 2 ^ 500 ≤ 1 / 2 ^ (4 * lo + 1) := div_le_div_of_nonneg_left (by norm_num) (by positivity) (two_pow_mono (by omega))
      _ = 1 / 2 ^ (4 * lo) / 2 := by rw [pow_succ]; field_simp
      _ ≤ y ^ 4 := by linarith
  have r2 : y ^ (4 : ℝ) ≤ 2 ^ 500 := by
    rw [hpow]
    calc y ^ 4 ≤ 2 * 2 ^ (4 * hi) := by linarith
      _ = 2 ^ (4 * hi + 1) := by rw [pow_succ]; ring
      _ ≤ 2 ^ 500 := two_pow_mono (by omega)
  obtain ⟨w, hw, hwe⟩ := Libm.powf_acc a.norm 4.0 y 4 hy h4 hy0 r1 r2
  rw [hpow] at hwe
  have hy4 : 0 < y ^ 4 := by positivity
  have w1 : y ^ 4 * (9 / 10) ≤ w := by have := (abs_le.mp hwe).1; norm_num at this; linarith
  have w2 : w ≤ y ^ 4 * (11 / 10) := by have := (abs_le.mp hwe).2; norm_num at this; linarith
  have hw0 : 0 < w := by linarith
  clear r1 r2 hwe
  -- the angle
  obtain ⟨g, hg, hgb⟩ := Libm.atan2_bound a.im a.re _ _ a2 a1
  have hgm := Is.mul (show Is a.arg g from hg) h4
  obtain ⟨al, hal, hale⟩ := rnd_err F (x := g * 4) (B := 2 ^ 5) (by
    rw [abs_mul, abs_of_pos (by norm_num : (0 : ℝ) < 4)]; norm_num; linarith) (by norm_num) (two_pow_mono (by norm_num))
  have hal' : |al| ≤ 1000 := by
    have : |al| ≤ |al - g * 4| + |g * 4| := by simpa using abs_add_le (al - g * 4) (g * 4)
    have h5 : |g * 4| ≤ 16 := by rw [abs_mul, abs_of_pos (by norm_num : (0 : ℝ) < 4)]; linarith
    norm_num at hale
    linarith
  have hang : Nr 1 (a.arg * 4.0) al 0 := Nr.exact (hgm.trans hal)
  have hscw : Sc 700 (w * 1) := by
    rw [mul_one]
    have b1 : (1 : ℝ) / 2 ^ (4 * lo + 1) ≤ w := by
      have : (1 : ℝ) / 2 ^ (4 * lo + 1) = 1 / 2 ^ (4 * lo) / 2 := by rw [pow_succ]; field_simp
      rw [this]; linarith
    have b2 : w ≤ 2 ^ (4 * hi + 1) := by rw [pow_succ]; linarith
    exact (Sc.of_bounds b1 b2).mono (by omega)
  have hW : Nr w (Flt.powf a.norm 4.0) 1 0 := by
    have := Nr.exact' hw0 hw
    rwa [div_self hw0.ne'] at this
  have hre := Nr.mul hw0 one_pos hscw hW (hang.cos hal' (by norm_num)) (X := 1) (Y := 1) (by norm_num) (Real.abs_cos_le_one al) (by norm_num)
    le_rfl (by norm_num) (by norm_num) (by norm_num) (by norm_num)
  have him := Nr.mul hw0 one_pos hscw hW (hang.sin hal' (by norm_num)) (X := 1) (Y := 1) (by norm_num) (Real.abs_sin_le_one al) (by norm_num)
    le_rfl (by norm_num) (by norm_num) (by norm_num) (by norm_num)
  have hform : a.powf 4.0 = Cpx.fromPolar (Flt.powf a.norm 4.0) (a.arg * 4.0) := by
    unfold Cpx.powf
    rw [if_neg]
    rw [eq_val, h4, val_0]
    simp [Val.eq]
  rw [hform]
  obtain ⟨v, v1, v2, v3⟩ := norm_near (a := Cpx.fromPolar (Flt.powf a.norm 4.0) (a.arg * 4.0)) hre him hscw.pos.le
  have hone : ‖(⟨1 * Real.cos al, 1 * Real.sin al⟩ : ℂ)‖ = 1 := by
    rw [one_mul, one_mul, Complex.norm_def, Complex.normSq_apply]
    have := Real.cos_sq_add_sin_sq al
    rw [show Real.cos al * Real.cos al + Real.sin al * Real.sin al = 1 by nlinarith, Real.sqrt_one]
  rw [hone, mul_one, mul_one] at v3
  refine ⟨v, v1, v2, ?_, ?_⟩
  · have e : (1 : ℝ) / 2 ^ (4 * lo + 2) = 1 / 2 ^ (4 * lo) / 4 := by rw [pow_add]; norm_num; ring
    have := (abs_le.mp v3).1
    norm_num at this
    rw [e]; linarith
  · have := (abs_le.mp v3).2
    norm_num at this
    rw [pow_add]
    norm_num
    linarith

end Visqol
