import Verif.Lemmas.IeeeCell
import Verif.Lemmas.IeeeSelf

/-! # One cell of a patch comparison in floating point, where the windows are not nearly flat -/

set_option linter.unusedSectionVars false

namespace Visqol
open Ieee
variable {F : Type} [Flt F] [Ieee F]

theorem key60 {t : ℝ} (ht : |t| ≤ 2 ^ 60) : ∃ y, rnd F t = .fin y ∧ |y - t| ≤ |t| / 2 ^ 52 + 1 / 2 ^ 60 := by
  have hbig : (2 : ℝ) ^ 60 ≤ 2 ^ 100 := two_pow_mono (by norm_num)
  have htiny : (1 : ℝ) / 2 ^ 200 ≤ 1 / 2 ^ 60 := div_le_div_of_nonneg_left (by norm_num) (by positivity) (two_pow_mono (by norm_num))
  obtain ⟨y, h1, h2⟩ := rnd_rel' F (ht.trans hbig)
  exact ⟨y, h1, h2.trans (add_le_add le_rfl htiny)⟩

/-- The square of a literal constant, computed by `powf`. -/
theorem square_lit [Libm F] {a : F} {x : ℝ} (ha : ∃ w, val a = .fin w ∧ |w - x| ≤ 1 / 2 ^ 51 * x) (h1 : 1 / 100 ≤ x) (h2 : x ≤ 3 / 100) :
    ∃ z, Is (Flt.powf (a * 1.0) 2.0) z ∧ |z - x ^ 2| ≤ 1 / 2 ^ 48 := by
  obtain ⟨_, w, hw, hw'⟩ := Rel.mul (F := F) (a := a) (x := x) ⟨by positivity, ha⟩
    (Rel.exact (val_1 (F := F)) (by norm_num)) (mid_of (by norm_num; linarith) (by norm_num; linarith)) (mid_of (by norm_num) (by norm_num))
    (by norm_num) le_rfl (by norm_num) (by norm_num)
  rw [mul_one] at hw'
  have hw2 : |w - x| ≤ 1 / 2 ^ 50 := by
    refine hw'.trans ?_
    norm_num
    linarith
  clear hw'
  obtain ⟨a1, a2⟩ := abs_le.mp hw2
  have hwp : 1 / 200 ≤ w := by norm_num at *; linarith
  have hwq : w ≤ 4 / 100 := by norm_num at *; linarith
  have e2 : w ^ (2 : ℝ) = w ^ 2 := by norm_cast
  have s1 : 1 / 2 ^ 20 ≤ w ^ 2 := by norm_num; nlinarith
  have s2 : w ^ 2 ≤ 16 / 10000 := by nlinarith
  obtain ⟨z, hz, hze⟩ := Libm.powf_acc (F := F) (a * 1.0) 2.0 w 2 hw val_2 (by linarith) (by
      rw [e2]
      exact (div_le_div_of_nonneg_left (by norm_num) (by positivity) (two_pow_mono (by norm_num : 20 ≤ 500))).trans s1) (by
      rw [e2]
      exact s2.trans (le_trans (by norm_num) (two_pow_mono (by norm_num : 2 ≤ 500))))
  rw [e2] at hze
  refine ⟨z, hz, ?_⟩
  have h3 : |w ^ 2 - x ^ 2| ≤ 1 / 2 ^ 50 * (7 / 100) := by
    rw [show w ^ 2 - x ^ 2 = (w - x) * (w + x) by ring, abs_mul]
    exact mul_le_mul hw2 (by rw [abs_of_nonneg (by linarith)]; linarith) (abs_nonneg _) (by positivity)
  have h4 := abs_add_le (z - w ^ 2) (w ^ 2 - x ^ 2)
  rw [sub_add_sub_cancel] at h4
  norm_num at *
  linarith

theorem c1_acc [Libm F] : ∃ z, Is (nsimC1 : F) z ∧ |z - 1 / 10000| ≤ 1 / 2 ^ 48 := by
  obtain ⟨z, h1, h2⟩ := square_lit (F := F) (a := 0.01) (x := 1 / 100)
    (lit_near (F := F) (m := 1) (e := 2) (x := 1 / 100) (by norm_num) (by norm_num) (by norm_num)) (by norm_num) (by norm_num)
  exact ⟨z, h1, by rw [show (1 : ℝ) / 10000 = (1 / 100) ^ 2 by norm_num]; exact h2⟩

theorem c3_acc [Libm F] : ∃ z, Is (nsimC3 : F) z ∧ |z - 45 / 100000| ≤ 1 / 2 ^ 47 := by
  obtain ⟨z, h1, h2⟩ := square_lit (F := F) (a := 0.03) (x := 3 / 100)
    (lit_near (F := F) (m := 3) (e := 2) (x := 3 / 100) (by norm_num) (by norm_num) (by norm_num)) (by norm_num) (by norm_num)
  obtain ⟨b1, b2⟩ := abs_le.mp h2
  obtain ⟨y, hy, hye⟩ := rnd_err F (x := z / 2) (B := 1) (by rw [abs_le]; constructor <;> norm_num at * <;> linarith) le_rfl
    (one_le_pow₀ (by norm_num))
  obtain ⟨d1, d2⟩ := abs_le.mp hye
  refine ⟨y, (Is.div h1 val_2 (by norm_num)).trans hy, ?_⟩
  rw [abs_le]
  constructor <;> norm_num at * <;> linarith

/-- Levels of at most 256: the computed windowed mean. -/
theorem windowMean_near8 {x : Nat → Nat → F} {u : Nat → Nat → ℝ} (hx : ∀ r c, Is (x r c) (u r c)) (hu : ∀ r c, |u r c| ≤ 2 ^ 8) :
    ∃ m, Is (nsimAvg x) m ∧ |m - nsimAvg u| ≤ 36 * (2 ^ 8 / 2 ^ 51) ∧ |m| ≤ 257 ∧ |nsimAvg u| ≤ 2 ^ 8 := by
  obtain ⟨⟨m, hm, hme⟩, ha⟩ := nsimAvg_acc (F := F) (by norm_num) (two_pow_mono (m := 8) (n := 900) (by norm_num)) hx hu
  refine ⟨m, hm, hme, ?_, ha⟩
  have := abs_add_le (m - nsimAvg u) (nsimAvg u)
  rw [sub_add_cancel] at this
  norm_num at *; linarith

/-- Levels of at most 256: the computed windowed covariance. -/
theorem cov_near8 {x y : Nat → Nat → F} {u v : Nat → Nat → ℝ} (hx : ∀ r c, Is (x r c) (u r c)) (hy : ∀ r c, Is (y r c) (v r c))
    (hu : ∀ r c, |u r c| ≤ 2 ^ 8) (hv : ∀ r c, |v r c| ≤ 2 ^ 8) :
    ∃ c, Is (nsimAvg (fun r c => x r c * y r c) - nsimAvg x * nsimAvg y) c ∧
      |c - (nsimAvg (fun r c => u r c * v r c) - nsimAvg u * nsimAvg v)| ≤ 1 / 2 ^ 27 ∧
      |nsimAvg (fun r c => u r c * v r c) - nsimAvg u * nsimAvg v| ≤ 2 ^ 17 := by
  have hb2 := two_pow_mono (m := 17) (n := 900) (by norm_num)
  have hb3 := two_pow_mono (m := 19) (n := 1000) (by norm_num)
  obtain ⟨m, hm, hme, hmb, hE⟩ := windowMean_near8 hx hu
  obtain ⟨k, hk, hke, hkb, hG⟩ := windowMean_near8 hy hv
  have huv : ∀ r c, |u r c * v r c| ≤ 2 ^ 16 := by
    intro r c
    rw [abs_mul]
    have := mul_le_mul (hu r c) (hv r c) (abs_nonneg _) (by norm_num)
    norm_num at this ⊢; linarith
  have hsq : ∀ r c, ∃ s, Is (x r c * y r c) s ∧ |s - u r c * v r c| ≤ 2 ^ 16 / 2 ^ 51 := by
    intro r c
    obtain ⟨s, hs, hse⟩ := rnd_err F (huv r c) (by norm_num) (le_trans (two_pow_mono (by norm_num)) hb3)
    exact ⟨s, (Is.mul (hx r c) (hy r c)).trans hs, hse⟩
  choose s hs hse using hsq
  have hsb : ∀ r c, |s r c| ≤ 2 ^ 17 := by
    intro r c
    have := abs_add_le (s r c - u r c * v r c) (u r c * v r c)
    rw [sub_add_cancel] at this
    refine this.trans ((add_le_add (hse r c) (huv r c)).trans (by norm_num))
  obtain ⟨⟨z, hz, hze⟩, hzb⟩ := nsimAvg_acc (F := F) (B := 2 ^ 17) (by norm_num) hb2 (x := fun r c => x r c * y r c) hs hsb
  have hst := nsimAvg_near hse
  have hP : |nsimAvg (fun r c => u r c * v r c)| ≤ 2 ^ 16 := by
    have h := nsimAvg_near (s := fun r c => u r c * v r c) (t := fun _ _ => 0) (ε := 2 ^ 16) (fun r c => by rw [sub_zero]; exact huv r c)
    have h0 : nsimAvg (fun _ _ => (0 : ℝ)) = 0 := by rw [nsimAvg_real']; simp
    rwa [h0, sub_zero] at h
  generalize nsimAvg (fun r c => u r c * v r c) = P at *
  generalize (nsimAvg s : ℝ) = S at *
  generalize (nsimAvg u : ℝ) = E at *
  generalize (nsimAvg v : ℝ) = G at *
  have hEG : |E * G| ≤ 2 ^ 16 := by
    rw [abs_mul]
    have := mul_le_mul hE hG (abs_nonneg _) (by norm_num)
    norm_num at this ⊢; linarith
  have hmk : |m * k| ≤ 2 ^ 17 := by
    rw [abs_mul]
    have := mul_le_mul hmb hkb (abs_nonneg _) (by norm_num)
    norm_num at this ⊢; linarith
  have hdiff : |m * k - E * G| ≤ 36 * (2 ^ 8 / 2 ^ 51) * 513 := by
    have e1 : m * k - E * G = (m - E) * k + E * (k - G) := by ring
    rw [e1]
    refine (abs_add_le _ _).trans ?_
    rw [abs_mul, abs_mul]
    have i1 := mul_le_mul hme hkb (abs_nonneg _) (by norm_num)
    have i2 := mul_le_mul hE hke (abs_nonneg _) (by norm_num)
    norm_num at i1 i2 ⊢; linarith
  obtain ⟨q, hq, hqe⟩ := rnd_err F hmk (by norm_num) (le_trans (two_pow_mono (by norm_num)) hb3)
  obtain ⟨a1l, a1u⟩ := abs_le.mp hqe
  obtain ⟨a2l, a2u⟩ := abs_le.mp hze
  obtain ⟨a3l, a3u⟩ := abs_le.mp hdiff
  obtain ⟨a4l, a4u⟩ := abs_le.mp hzb
  obtain ⟨a5l, a5u⟩ := abs_le.mp hmk
  obtain ⟨a6l, a6u⟩ := abs_le.mp hst
  obtain ⟨a7l, a7u⟩ := abs_le.mp hP
  obtain ⟨a8l, a8u⟩ := abs_le.mp hEG
  have hzq : |z - q| ≤ 2 ^ 18 + 1 := by
    clear hb2 hb3
    rw [abs_le]
    norm_num at *
    constructor <;> linarith
  obtain ⟨c, hc, hce⟩ := rnd_err F hzq (by norm_num) (le_trans (by norm_num) hb3)
  obtain ⟨a9l, a9u⟩ := abs_le.mp hce
  clear hb2 hb3
  refine ⟨c, (Is.sub hz ((Is.mul hm hk).trans hq)).trans hc, ?_, ?_⟩
  · rw [abs_le]
    norm_num at *
    constructor <;> linarith
  · rw [abs_le]
    norm_num at *
    constructor <;> linarith

/-- A quotient of at most 1 whose parts are known up to fractions of the denominator. -/
theorem ratio_close {n d N D a b : ℝ} (hD : 0 < D) (hN : |N| ≤ D) (hn : |n - N| ≤ a * D) (hd : |d - D| ≤ b * D) (hb : b ≤ 1 / 2) :
    |n / d - N / D| ≤ 2 * (a + b) ∧ D / 2 ≤ d := by
  have h1 : D / 2 ≤ d := by
    have := (abs_le.mp hd).1
    nlinarith
  have hdp : 0 < d := by linarith
  refine ⟨?_, h1⟩
  have e : n / d - N / D = ((n - N) * D - N * (d - D)) / (d * D) := by field_simp; ring
  have hab : 0 ≤ a + b := by
    have h3 : 0 ≤ a * D := (abs_nonneg _).trans hn
    have h4 : 0 ≤ b * D := (abs_nonneg _).trans hd
    nlinarith
  rw [e, abs_div, abs_of_pos (mul_pos hdp hD), div_le_iff₀ (mul_pos hdp hD)]
  have h2 : |(n - N) * D - N * (d - D)| ≤ a * D * D + D * (b * D) := by
    refine (abs_sub _ _).trans ?_
    rw [abs_mul, abs_mul, abs_of_pos hD]
    exact add_le_add (mul_le_mul_of_nonneg_right hn hD.le) (mul_le_mul hN hd (abs_nonneg _) hD.le)
  refine h2.trans ?_
  have h3 : (a + b) * D * (D / 2) ≤ (a + b) * D * d := mul_le_mul_of_nonneg_left h1 (mul_nonneg hab hD.le)
  nlinarith

/-- A product of two means, relative to the denominator of the intensity. -/
theorem product_close {a b : F} {m k E G D : ℝ} (hm : Is a m) (hk : Is b k) (em : |m - E| ≤ 1 / 2 ^ 37) (ek : |k - G| ≤ 1 / 2 ^ 37)
    (hE : |E| ≤ 50 * D) (hG : |G| ≤ 50 * D) (hEG : |E * G| ≤ D) (hD : 1 / 10000 ≤ D) (hD2 : D ≤ 2 ^ 18) :
    ∃ p, Is (a * b) p ∧ |p - E * G| ≤ D / 2 ^ 29 := by
  have h1 : |m * k - E * G| ≤ 1 / 2 ^ 37 * (100 * D + 1 / 2 ^ 37) := by
    rw [show m * k - E * G = (m - E) * k + E * (k - G) by ring]
    have hkb : |k| ≤ 50 * D + 1 / 2 ^ 37 := by
      have := abs_add_le (k - G) G
      rw [sub_add_cancel] at this
      linarith
    refine (abs_add_le _ _).trans ?_
    rw [abs_mul, abs_mul]
    have i1 := mul_le_mul em hkb (abs_nonneg _) (by norm_num)
    have i2 := mul_le_mul hE ek (abs_nonneg _) (by linarith)
    linarith
  have h2 : |m * k| ≤ D * (101 / 100) := by
    have := abs_add_le (m * k - E * G) (E * G)
    rw [sub_add_cancel] at this
    norm_num at *; linarith
  obtain ⟨p, hp1, hp2⟩ := key60 (F := F) (h2.trans (by norm_num at *; linarith))
  refine ⟨p, (Is.mul hm hk).trans hp1, ?_⟩
  have := abs_add_le (p - m * k) (m * k - E * G)
  rw [sub_add_sub_cancel] at this
  norm_num at *; linarith

set_option maxHeartbeats 1000000 in
theorem intensity_close [Libm F] {mx my : F} {m k E G : ℝ} (hm : Is mx m) (hk : Is my k) (em : |m - E| ≤ 1 / 2 ^ 37) (ek : |k - G| ≤ 1 / 2 ^ 37)
    (hE : |E| ≤ 2 ^ 8) (hG : |G| ≤ 2 ^ 8) :
    ∃ i, Is ((mx * my * 2.0 + nsimC1) / (mx * mx + my * my + nsimC1)) i ∧
      |i - (2 * (E * G) + 1 / 10000) / (E ^ 2 + G ^ 2 + 1 / 10000)| ≤ 1 / 2 ^ 23 := by
  obtain ⟨c, hc, hce⟩ := c1_acc (F := F)
  have hEs := sq_nonneg E
  have hGs := sq_nonneg G
  have bE : E ^ 2 ≤ 2 ^ 16 := by
    rw [← sq_abs, show (2 : ℝ) ^ 16 = (2 ^ 8) ^ 2 by norm_num]; exact pow_le_pow_left₀ (abs_nonneg _) hE 2
  have bG : G ^ 2 ≤ 2 ^ 16 := by
    rw [← sq_abs, show (2 : ℝ) ^ 16 = (2 ^ 8) ^ 2 by norm_num]; exact pow_le_pow_left₀ (abs_nonneg _) hG 2
  have hcs : 2 * |E * G| ≤ E ^ 2 + G ^ 2 := by
    rw [abs_mul, ← sq_abs E, ← sq_abs G]
    nlinarith [sq_nonneg (|E| - |G|)]
  have l1 : |E| ≤ 50 * (E ^ 2 + 1 / 10000) := by
    rw [← sq_abs]
    nlinarith [sq_nonneg (|E| - 1 / 100)]
  have l2 : |G| ≤ 50 * (G ^ 2 + 1 / 10000) := by
    rw [← sq_abs]
    nlinarith [sq_nonneg (|G| - 1 / 100)]
  obtain ⟨D, hDd⟩ : ∃ D, D = E ^ 2 + G ^ 2 + 1 / 10000 := ⟨_, rfl⟩
  have hD0 : 1 / 10000 ≤ D := by linarith
  have hD1 : D ≤ 2 ^ 18 := by norm_num at *; linarith
  have hE' : |E| ≤ 50 * D := by linarith
  have hG' : |G| ≤ 50 * D := by linarith
  obtain ⟨p, IP, hp⟩ := product_close hm hk em ek hE' hG' (by linarith [abs_nonneg (E * G)]) hD0 hD1
  obtain ⟨a, IA, ha⟩ := product_close hm hm em em hE' hE' (by rw [← sq, abs_of_nonneg hEs]; linarith) hD0 hD1
  obtain ⟨b, IB, hb⟩ := product_close hk hk ek ek hG' hG' (by rw [← sq, abs_of_nonneg hGs]; linarith) hD0 hD1
  rw [← sq] at ha hb
  rw [← hDd]
  have hN : |2 * (E * G) + 1 / 10000| ≤ D := by
    have := abs_add_le (2 * (E * G)) (1 / 10000)
    rw [abs_mul, abs_of_pos (by norm_num : (0 : ℝ) < 2), abs_of_pos (by norm_num : (0 : ℝ) < 1 / 10000)] at this
    linarith
  have hEG' : |E * G| ≤ D := by linarith [abs_nonneg (E * G)]
  generalize E * G = Q at *
  generalize E ^ 2 = A at *
  generalize G ^ 2 = B at *
  obtain ⟨p1, p2⟩ := abs_le.mp hp
  obtain ⟨a1, a2⟩ := abs_le.mp ha
  obtain ⟨b1, b2⟩ := abs_le.mp hb
  obtain ⟨c1, c2⟩ := abs_le.mp hce
  obtain ⟨q1, q2⟩ := abs_le.mp hEG'
  -- the numerator
  have hpb : |p * 2| ≤ 3 * D := by rw [abs_le]; constructor <;> norm_num at * <;> linarith
  obtain ⟨d, hd1, hd2⟩ := key60 (F := F) (hpb.trans (by norm_num at *; linarith))
  have ID : Is (mx * my * 2.0) d := (Is.mul IP val_2).trans hd1
  have hd3 : |d - 2 * Q| ≤ D / 2 ^ 27 := by
    have := abs_add_le (d - p * 2) (p * 2 - 2 * Q)
    rw [sub_add_sub_cancel] at this
    have h2 : |p * 2 - 2 * Q| ≤ D / 2 ^ 28 := by rw [abs_le]; constructor <;> norm_num at * <;> linarith
    norm_num at *; linarith
  obtain ⟨d4, d5⟩ := abs_le.mp hd3
  have hdb : |d + c| ≤ 4 * D := by rw [abs_le]; constructor <;> norm_num at * <;> linarith
  obtain ⟨n, hn1, hn2⟩ := key60 (F := F) (hdb.trans (by norm_num at *; linarith))
  have hn3 : |n - (2 * Q + 1 / 10000)| ≤ 1 / 2 ^ 26 * D := by
    have := abs_add_le (n - (d + c)) (d + c - (2 * Q + 1 / 10000))
    rw [sub_add_sub_cancel] at this
    have h2 : |d + c - (2 * Q + 1 / 10000)| ≤ D / 2 ^ 27 + 1 / 2 ^ 48 := by rw [abs_le]; constructor <;> linarith
    norm_num at *; linarith
  -- the denominator
  have hab : |a + b| ≤ 2 * D := by rw [abs_le]; constructor <;> norm_num at * <;> linarith
  obtain ⟨g, hg1, hg2⟩ := key60 (F := F) (hab.trans (by norm_num at *; linarith))
  have hg3 : |g - (A + B)| ≤ D / 2 ^ 27 := by
    have := abs_add_le (g - (a + b)) (a + b - (A + B))
    rw [sub_add_sub_cancel] at this
    have h2 : |a + b - (A + B)| ≤ D / 2 ^ 28 := by rw [abs_le]; constructor <;> norm_num at * <;> linarith
    norm_num at *; linarith
  obtain ⟨g4, g5⟩ := abs_le.mp hg3
  have hgb : |g + c| ≤ 4 * D := by rw [abs_le]; constructor <;> norm_num at * <;> linarith
  obtain ⟨e, he1, he2⟩ := key60 (F := F) (hgb.trans (by norm_num at *; linarith))
  have he3 : |e - D| ≤ 1 / 2 ^ 26 * D := by
    have := abs_add_le (e - (g + c)) (g + c - D)
    rw [sub_add_sub_cancel] at this
    have h2 : |g + c - D| ≤ D / 2 ^ 27 + 1 / 2 ^ 48 := by rw [abs_le]; constructor <;> linarith
    norm_num at *; linarith
  obtain ⟨r1, r2⟩ := ratio_close (by linarith) hN hn3 he3 (by norm_num)
  have hq1 : |(2 * Q + 1 / 10000) / D| ≤ 1 := by
    rw [abs_div, abs_of_pos (by linarith : 0 < D), div_le_one (by linarith)]; exact hN
  generalize (2 * Q + 1 / 10000) / D = I at *
  have hq2 : |n / e| ≤ 2 := by
    have := abs_add_le (n / e - I) I
    rw [sub_add_cancel] at this
    norm_num at *; linarith
  obtain ⟨i, hi1, hi2⟩ := key60 (F := F) (hq2.trans (by norm_num))
  have IN : Is (mx * my * 2.0 + nsimC1) n := (Is.add ID hc).trans hn1
  have IE : Is (mx * mx + my * my + nsimC1) e := (Is.add ((Is.add IA IB).trans hg1) hc).trans he1
  refine ⟨i, (Is.div IN IE (by linarith)).trans hi1, ?_⟩
  have := abs_add_le (i - n / e) (n / e - I)
  rw [sub_add_sub_cancel] at this
  norm_num at *; linarith

theorem structure_close [Libm F] {cv vw : F} {c e C S : ℝ} (hc : Is cv c) (he : Is vw e) (he0 : 0 ≤ e) (hS0 : 0 ≤ S) (hS : S ≤ 2 ^ 17)
    (hC : |C| ≤ S) (ec : |c - C| ≤ (S + 45 / 100000) / 2 ^ 23) (es : |Real.sqrt e - S| ≤ S / 2 ^ 21) :
    ∃ s, Is ((cv + nsimC3) / strDenom vw) s ∧ |s - (C + 45 / 100000) / (S + 45 / 100000)| ≤ 1 / 2 ^ 18 := by
  obtain ⟨d, hd, hde⟩ := c3_acc (F := F)
  obtain ⟨d1, d2⟩ := abs_le.mp hde
  obtain ⟨C1, C2⟩ := abs_le.mp hC
  obtain ⟨T, hT⟩ : ∃ T, T = S + 45 / 100000 := ⟨_, rfl⟩
  rw [← hT] at ec ⊢
  have hT0 : 45 / 100000 ≤ T := by linarith
  obtain ⟨c1, c2⟩ := abs_le.mp ec
  have hnb : |c + d| ≤ 2 * T := by rw [abs_le]; constructor <;> norm_num at * <;> linarith
  obtain ⟨n, hn1, hn2⟩ := key60 (F := F) (hnb.trans (by norm_num at *; linarith))
  have hn3 : |n - (C + 45 / 100000)| ≤ 1 / 2 ^ 22 * T := by
    have := abs_add_le (n - (c + d)) (c + d - (C + 45 / 100000))
    rw [sub_add_sub_cancel] at this
    have h2 : |c + d - (C + 45 / 100000)| ≤ T / 2 ^ 23 + 1 / 2 ^ 47 := by rw [abs_le]; constructor <;> linarith
    norm_num at *; linarith
  have hN : |C + 45 / 100000| ≤ T := by rw [abs_le]; constructor <;> linarith
  obtain ⟨s1, s2⟩ := abs_le.mp es
  have hr0 := Real.sqrt_nonneg e
  have hsq := he.sqrt he0
  generalize Real.sqrt e = R at *
  obtain ⟨r, hr1, hr2⟩ := key60 (F := F) (t := R) (by rw [abs_of_nonneg hr0]; norm_num at *; linarith)
  rw [abs_of_nonneg hr0] at hr2
  obtain ⟨k1, k2⟩ := abs_le.mp hr2
  have hgb : |r + d| ≤ 2 * T := by rw [abs_le]; constructor <;> norm_num at * <;> linarith
  obtain ⟨g, hg1, hg2⟩ := key60 (F := F) (hgb.trans (by norm_num at *; linarith))
  have hg3 : |g - T| ≤ 3 / 2 ^ 22 * T := by
    have := abs_add_le (g - (r + d)) (r + d - T)
    rw [sub_add_sub_cancel] at this
    have h2 : |r + d - T| ≤ S / 2 ^ 21 + R / 2 ^ 52 + 1 / 2 ^ 60 + 1 / 2 ^ 47 := by rw [abs_le]; constructor <;> linarith
    norm_num at *; linarith
  have hden : Is (strDenom vw : F) g := by
    unfold strDenom
    rw [Is.lt he val_0, decide_eq_false (not_lt.mpr he0), if_neg (by simp)]
    exact (Is.add (hsq.trans hr1) hd).trans hg1
  obtain ⟨r1, r2⟩ := ratio_close (by linarith) hN hn3 hg3 (by norm_num)
  have hq1 : |(C + 45 / 100000) / T| ≤ 1 := by
    rw [abs_div, abs_of_pos (by linarith : 0 < T), div_le_one (by linarith)]; exact hN
  generalize (C + 45 / 100000) / T = I at *
  have hq2 : |n / g| ≤ 2 := by
    have := abs_add_le (n / g - I) I
    rw [sub_add_cancel] at this
    norm_num at *; linarith
  obtain ⟨i, hi1, hi2⟩ := key60 (F := F) (hq2.trans (by norm_num))
  refine ⟨i, (Is.div ((Is.add hc hd).trans hn1) hden (by linarith)).trans hi1, ?_⟩
  have := abs_add_le (i - n / g) (n / g - I)
  rw [sub_add_sub_cancel] at this
  norm_num at *; linarith

/-- The root of a product of two computed variances that are not small. -/
theorem root_close {va wa : F} {v w V W : ℝ} (hv : Is va v) (hw : Is wa w) (ev : |v - V| ≤ 1 / 2 ^ 27) (ew : |w - W| ≤ 1 / 2 ^ 27)
    (hV : 1 / 16 ≤ V) (hW : 1 / 16 ≤ W) (hV2 : V ≤ 2 ^ 17) (hW2 : W ≤ 2 ^ 17) :
    ∃ e, Is (va * wa) e ∧ 0 ≤ e ∧ |Real.sqrt e - Real.sqrt (V * W)| ≤ Real.sqrt (V * W) / 2 ^ 21 := by
  have hVW : 1 / 256 ≤ V * W := by nlinarith
  have hVW2 : V * W ≤ 2 ^ 34 := by
    have := mul_le_mul hV2 hW2 (by linarith) (by norm_num)
    norm_num at this ⊢; linarith
  have h1 : |v * w - V * W| ≤ V * W * (21 / 10) / 2 ^ 23 := by
    rw [show v * w - V * W = (v - V) * w + V * (w - W) by ring]
    have hwb : |w| ≤ W * (1001 / 1000) := by
      obtain ⟨k1, k2⟩ := abs_le.mp ew
      rw [abs_le]; constructor <;> norm_num at * <;> linarith
    refine (abs_add_le _ _).trans ?_
    rw [abs_mul, abs_mul, abs_of_nonneg (by linarith : 0 ≤ V)]
    have ev' : |v - V| ≤ V / 2 ^ 23 := ev.trans (by norm_num; linarith)
    have ew' : |w - W| ≤ W / 2 ^ 23 := ew.trans (by norm_num; linarith)
    have i1 := mul_le_mul ev' hwb (abs_nonneg _) (by positivity)
    have i2 := mul_le_mul_of_nonneg_left ew' (by linarith : 0 ≤ V)
    have e1 : V / 2 ^ 23 * (W * (1001 / 1000)) = V * W * (1001 / 1000) / 2 ^ 23 := by ring
    have e2 : V * (W / 2 ^ 23) = V * W / 2 ^ 23 := by ring
    rw [e1] at i1
    rw [e2] at i2
    generalize V * W = X at *
    norm_num at *; linarith
  obtain ⟨S, hS⟩ : ∃ S, S = Real.sqrt (V * W) := ⟨_, rfl⟩
  have hSS : S * S = V * W := by rw [hS]; exact Real.mul_self_sqrt (by linarith)
  have hS0 : 0 ≤ S := by rw [hS]; exact Real.sqrt_nonneg _
  have hSp : 0 < S := by
    rcases hS0.lt_or_eq with h | h
    · exact h
    · rw [← h, mul_zero] at hSS; linarith only [hSS, hVW]
  rw [← hS]
  rw [← hSS] at h1 hVW hVW2
  have h2 : |v * w| ≤ S * S * 2 := by
    have := abs_add_le (v * w - S * S) (S * S)
    rw [sub_add_cancel, abs_of_nonneg (mul_self_nonneg S)] at this
    generalize S * S = X at *
    norm_num at *; linarith
  obtain ⟨e, he1, he2⟩ := key60 (F := F) (h2.trans (by norm_num at *; linarith))
  have h3 : |e - S * S| ≤ S * S / 2 ^ 21 := by
    have := abs_add_le (e - v * w) (v * w - S * S)
    rw [sub_add_sub_cancel] at this
    generalize S * S = X at *
    norm_num at *; linarith
  have he0 : 0 ≤ e := by
    have := (abs_le.mp h3).1
    generalize S * S = X at *
    norm_num at *; linarith
  refine ⟨e, (Is.mul hv hw).trans he1, he0, ?_⟩
  have hr := Real.sqrt_nonneg e
  have hrr := Real.mul_self_sqrt he0
  generalize Real.sqrt e = R at *
  have e4 : |R - S| * (R + S) = |e - S * S| := by
    rw [← abs_of_nonneg (by linarith : 0 ≤ R + S), ← abs_mul]
    congr 1
    rw [← hrr]; ring
  have h5 : |R - S| * S ≤ S / 2 ^ 21 * S := by
    have : |R - S| * S ≤ |R - S| * (R + S) := mul_le_mul_of_nonneg_left (by linarith) (abs_nonneg _)
    rw [e4] at this
    calc _ ≤ _ := this
      _ ≤ _ := h3
      _ = _ := by ring
  exact le_of_mul_le_mul_right h5 hSp

/-! ## Windows of zeros -/

theorem zero_step {p a w : F} (hp : Is p 0) (ha : Is a 0) (hw : ∃ ω, val w = .fin ω) : Is (p + a * w) 0 := by
  obtain ⟨ω, hω⟩ := hw
  have h : Is (a * w) 0 := by
    unfold Is
    rw [Is.mul ha hω, zero_mul, rnd_zero]
  unfold Is
  rw [Is.add hp h, add_zero, rnd_zero]

theorem nsimAvg_zeros {x : Nat → Nat → F} (hx : ∀ r < 3, ∀ c < 3, Is (x r c) 0) : Is (nsimAvg x) 0 := by
  have w1 : ∃ ω, val (0.0113033910173052 : F) = .fin ω :=
    (lit_near (F := F) (m := 113033910173052) (e := 16) (x := 0.0113033910173052) (by norm_num) (by norm_num) (by norm_num)).imp fun _ h => h.1
  have w2 : ∃ ω, val (0.0838251475442633 : F) = .fin ω :=
    (lit_near (F := F) (m := 838251475442633) (e := 16) (x := 0.0838251475442633) (by norm_num) (by norm_num) (by norm_num)).imp fun _ h => h.1
  have w3 : ∃ ω, val (0.619485845753726 : F) = .fin ω :=
    (lit_near (F := F) (m := 619485845753726) (e := 15) (x := 0.619485845753726) (by norm_num) (by norm_num) (by norm_num)).imp fun _ h => h.1
  unfold nsimAvg convSum
  exact zero_step (zero_step (zero_step (zero_step (zero_step (zero_step (zero_step (zero_step (zero_step val_0
    (hx 0 (by norm_num) 0 (by norm_num)) w1) (hx 1 (by norm_num) 0 (by norm_num)) w2) (hx 2 (by norm_num) 0 (by norm_num)) w1)
    (hx 0 (by norm_num) 1 (by norm_num)) w2) (hx 1 (by norm_num) 1 (by norm_num)) w3) (hx 2 (by norm_num) 1 (by norm_num)) w2)
    (hx 0 (by norm_num) 2 (by norm_num)) w1) (hx 1 (by norm_num) 2 (by norm_num)) w2) (hx 2 (by norm_num) 2 (by norm_num)) w1

theorem zero_mul_is {a b : F} {y : ℝ} (ha : Is a 0) (hb : Is b y) : Is (a * b) 0 ∧ Is (b * a) 0 := by
  constructor
  · unfold Is; rw [Is.mul ha hb, zero_mul, rnd_zero]
  · unfold Is; rw [Is.mul hb ha, mul_zero, rnd_zero]

theorem zero_sub_is {a b : F} (ha : Is a 0) (hb : Is b 0) : Is (a - b) 0 := by
  unfold Is; rw [Is.sub ha hb, sub_zero, rnd_zero]

/-- Both windows vary, or one of them is zero. -/
def Textured (u v : Nat → Nat → ℝ) : Prop :=
  (1 / 16 ≤ nsimAvg (fun r c => u r c * u r c) - nsimAvg u * nsimAvg u ∧ 1 / 16 ≤ nsimAvg (fun r c => v r c * v r c) - nsimAvg v * nsimAvg v) ∨
    (∀ r < 3, ∀ c < 3, u r c = 0) ∨ ∀ r < 3, ∀ c < 3, v r c = 0

theorem nsimAvg_zero_real {u : Nat → Nat → ℝ} (h : ∀ r < 3, ∀ c < 3, u r c = 0) : nsimAvg u = 0 := by
  apply le_antisymm
  · rw [← nsimAvg_const (0 : ℝ)]; exact nsimAvg_mono fun r hr c hc => (h r hr c hc).le
  · conv_lhs => rw [← nsimAvg_const (0 : ℝ)]
    exact nsimAvg_mono fun r hr c hc => (h r hr c hc).ge

/-- The cell of two windows of levels of at most 256, both varying or one of them zero. -/
theorem simCell_close [Libm F] {x y : Nat → Nat → F} {u v : Nat → Nat → ℝ} (hx : ∀ r c, Is (x r c) (u r c)) (hy : ∀ r c, Is (y r c) (v r c))
    (hu : ∀ r c, |u r c| ≤ 2 ^ 8) (hv : ∀ r c, |v r c| ≤ 2 ^ 8) (ht : Textured u v) :
    ∃ z, Is (simCell x y) z ∧ |z - simCell u v| ≤ 1 / 2 ^ 17 := by
  obtain ⟨m, hm, hme, _, hE⟩ := windowMean_near8 hx hu
  obtain ⟨k, hk, hke, _, hG⟩ := windowMean_near8 hy hv
  obtain ⟨c, hc, hce, _⟩ := cov_near8 hx hy hu hv
  obtain ⟨a, ha, hae, hab⟩ := cov_near8 hx hx hu hu
  obtain ⟨b, hb, hbe, hbb⟩ := cov_near8 hy hy hv hv
  have hCS := nsim_cauchy u v
  have hV0 := nsim_var_nonneg u
  have hW0 := nsim_var_nonneg v
  obtain ⟨i, hi, hie⟩ := intensity_close hm hk (hme.trans (by norm_num)) (hke.trans (by norm_num)) hE hG
  have hstr : ∃ s, Is ((nsimAvg (fun r c => x r c * y r c) - nsimAvg x * nsimAvg y + nsimC3) /
      strDenom ((nsimAvg (fun r c => x r c * x r c) - nsimAvg x * nsimAvg x) * (nsimAvg (fun r c => y r c * y r c) - nsimAvg y * nsimAvg y))) s ∧
      |s - (nsimAvg (fun r c => u r c * v r c) - nsimAvg u * nsimAvg v + 45 / 100000) /
        (Real.sqrt ((nsimAvg (fun r c => u r c * u r c) - nsimAvg u * nsimAvg u) *
          (nsimAvg (fun r c => v r c * v r c) - nsimAvg v * nsimAvg v)) + 45 / 100000)| ≤ 1 / 2 ^ 18 := by
    rcases ht with ⟨t1, t2⟩ | hz
    · obtain ⟨e, he, he0, hes⟩ := root_close ha hb hae hbe t1 t2 (le_of_abs_le hab) (le_of_abs_le hbb)
      have hS1 : 1 / 16 ≤ Real.sqrt ((nsimAvg (fun r c => u r c * u r c) - nsimAvg u * nsimAvg u) *
          (nsimAvg (fun r c => v r c * v r c) - nsimAvg v * nsimAvg v)) := by
        apply Real.le_sqrt_of_sq_le
        have := mul_le_mul t1 t2 (by norm_num) hV0
        linarith
      have hS2 : Real.sqrt ((nsimAvg (fun r c => u r c * u r c) - nsimAvg u * nsimAvg u) *
          (nsimAvg (fun r c => v r c * v r c) - nsimAvg v * nsimAvg v)) ≤ 2 ^ 17 := by
        rw [Real.sqrt_le_left (by norm_num)]
        have := mul_le_mul (le_of_abs_le hab) (le_of_abs_le hbb) hW0 (by norm_num)
        linarith
      refine structure_close hc he he0 (Real.sqrt_nonneg _) hS2 hCS (hce.trans ?_) hes
      generalize Real.sqrt _ = S at *
      norm_num; linarith
    · have hz' : Is (nsimAvg (fun r c => x r c * y r c) - nsimAvg x * nsimAvg y) 0 ∧
          Is ((nsimAvg (fun r c => x r c * x r c) - nsimAvg x * nsimAvg x) * (nsimAvg (fun r c => y r c * y r c) - nsimAvg y * nsimAvg y)) 0 ∧
          nsimAvg (fun r c => u r c * v r c) - nsimAvg u * nsimAvg v = 0 ∧
          (nsimAvg (fun r c => u r c * u r c) - nsimAvg u * nsimAvg u) * (nsimAvg (fun r c => v r c * v r c) - nsimAvg v * nsimAvg v) = 0 := by
        rcases hz with hz | hz
        · have z0 : ∀ r < 3, ∀ c < 3, Is (x r c) 0 := fun r hr c hc => by have := hx r c; rwa [hz r hr c hc] at this
          have z1 := nsimAvg_zeros z0
          refine ⟨zero_sub_is (nsimAvg_zeros fun r hr c hc => (zero_mul_is (z0 r hr c hc) (hy r c)).1) (zero_mul_is z1 hk).1,
            (zero_mul_is (zero_sub_is (nsimAvg_zeros fun r hr c hc => (zero_mul_is (z0 r hr c hc) (hx r c)).1) (zero_mul_is z1 hm).1) hb).1,
            ?_, ?_⟩
          · rw [nsimAvg_zero_real hz, nsimAvg_zero_real (u := fun r c => u r c * v r c) fun r hr c hc => by rw [hz r hr c hc, zero_mul]]
            ring
          · rw [nsimAvg_zero_real hz, nsimAvg_zero_real (u := fun r c => u r c * u r c) fun r hr c hc => by rw [hz r hr c hc, zero_mul]]
            ring
        · have z0 : ∀ r < 3, ∀ c < 3, Is (y r c) 0 := fun r hr c hc => by have := hy r c; rwa [hz r hr c hc] at this
          have z1 := nsimAvg_zeros z0
          refine ⟨zero_sub_is (nsimAvg_zeros fun r hr c hc => (zero_mul_is (z0 r hr c hc) (hx r c)).2) (zero_mul_is z1 hm).2,
            (zero_mul_is (zero_sub_is (nsimAvg_zeros fun r hr c hc => (zero_mul_is (z0 r hr c hc) (hy r c)).1) (zero_mul_is z1 hk).1) ha).2,
            ?_, ?_⟩
          · rw [nsimAvg_zero_real hz, nsimAvg_zero_real (u := fun r c => u r c * v r c) fun r hr c hc => by rw [hz r hr c hc, mul_zero]]
            ring
          · rw [nsimAvg_zero_real hz, nsimAvg_zero_real (u := fun r c => v r c * v r c) fun r hr c hc => by rw [hz r hr c hc, zero_mul]]
            ring
      obtain ⟨z1, z2, z3, z4⟩ := hz'
      rw [z3, z4, Real.sqrt_zero]
      exact structure_close z1 z2 le_rfl le_rfl (by norm_num) (by simp) (by norm_num) (by simp)
  obtain ⟨s, hs, hse⟩ := hstr
  have hb1 := simCell_real u v
  rw [nsimC1_real, nsimC3_real] at hb1
  rw [show (0.0001 : ℝ) = 1 / 10000 by norm_num, show (0.00045 : ℝ) = 45 / 100000 by norm_num] at hb1
  have hI : |(2 * (nsimAvg u * nsimAvg v) + 1 / 10000) / (nsimAvg u ^ 2 + nsimAvg v ^ 2 + 1 / 10000)| ≤ 1 := by
    rw [abs_div, abs_of_pos (by positivity : 0 < nsimAvg u ^ 2 + nsimAvg v ^ 2 + 1 / 10000), div_le_one (by positivity), abs_le]
    constructor <;> nlinarith [sq_nonneg (nsimAvg u - nsimAvg v), sq_nonneg (nsimAvg u + nsimAvg v)]
  have hJ : |(nsimAvg (fun r c => u r c * v r c) - nsimAvg u * nsimAvg v + 45 / 100000) /
        (Real.sqrt ((nsimAvg (fun r c => u r c * u r c) - nsimAvg u * nsimAvg u) *
          (nsimAvg (fun r c => v r c * v r c) - nsimAvg v * nsimAvg v)) + 45 / 100000)| ≤ 1 := by
    have h0 := Real.sqrt_nonneg ((nsimAvg (fun r c => u r c * u r c) - nsimAvg u * nsimAvg u) *
          (nsimAvg (fun r c => v r c * v r c) - nsimAvg v * nsimAvg v))
    generalize Real.sqrt _ = S at *
    rw [abs_div, abs_of_pos (by linarith : 0 < S + 45 / 100000), div_le_one (by linarith)]
    refine (abs_add_le _ _).trans ?_
    rw [abs_of_pos (by norm_num : (0 : ℝ) < 45 / 100000)]
    linarith
  rw [hb1]
  generalize (2 * (nsimAvg u * nsimAvg v) + 1 / 10000) / (nsimAvg u ^ 2 + nsimAvg v ^ 2 + 1 / 10000) = I at *
  generalize (nsimAvg (fun r c => u r c * v r c) - nsimAvg u * nsimAvg v + 45 / 100000) /
        (Real.sqrt ((nsimAvg (fun r c => u r c * u r c) - nsimAvg u * nsimAvg u) *
          (nsimAvg (fun r c => v r c * v r c) - nsimAvg v * nsimAvg v)) + 45 / 100000) = J at *
  have hsb : |s| ≤ 2 := by
    have := abs_add_le (s - J) J
    rw [sub_add_cancel] at this
    norm_num at *; linarith
  have hd : |i * s - I * J| ≤ 1 / 2 ^ 23 * 2 + 1 * (1 / 2 ^ 18) := by
    rw [show i * s - I * J = (i - I) * s + I * (s - J) by ring]
    refine (abs_add_le _ _).trans ?_
    rw [abs_mul, abs_mul]
    exact add_le_add (mul_le_mul hie hsb (abs_nonneg _) (by norm_num)) (mul_le_mul hI hse (abs_nonneg _) (by norm_num))
  have hIJ : |I * J| ≤ 1 := by
    rw [abs_mul]
    have := mul_le_mul hI hJ (abs_nonneg _) (by norm_num)
    linarith
  have hib : |i * s| ≤ 2 := by
    have := abs_add_le (i * s - I * J) (I * J)
    rw [sub_add_cancel] at this
    norm_num at *; linarith
  obtain ⟨z, hz, hze⟩ := key60 (F := F) (hib.trans (by norm_num))
  refine ⟨z, (Is.mul hi hs).trans hz, ?_⟩
  have := abs_add_le (z - i * s) (i * s - I * J)
  rw [sub_add_sub_cancel] at this
  norm_num at *; linarith

/-- A mean of numbers near given numbers of at most 1 is near the mean of those. -/
theorem mean_unit_near [Libm F] {l : List F} {ys : List ℝ} {ε : ℝ} (h : List.Forall₂ (fun a y => |y| ≤ 1 + ε ∧ ∃ x, Is a x ∧ |x - y| ≤ ε) l ys)
    (hε : ε ≤ 1 / 4) (h0 : 0 < l.length) (h1 : l.length ≤ 2 ^ 20) :
    ∃ z, Is (Flt.sum l / Flt.ofNat l.length) z ∧ |z - ys.sum / ys.length| ≤ ε + 1 / 10 ^ 8 := by
  have hx : ∃ xs : List ℝ, l.map val = xs.map .fin ∧ (∀ x ∈ xs, |x| ≤ 2) ∧ |xs.sum - ys.sum| ≤ ys.length * ε ∧ |ys.sum| ≤ ys.length * (1 + ε) := by
    clear h0 h1
    induction h with
    | nil => exact ⟨[], rfl, by simp, by simp, by simp⟩
    | @cons a y l ys hay _ ih =>
      obtain ⟨xs, e, b, d, d2⟩ := ih
      obtain ⟨hy, x, hx, hb⟩ := hay
      refine ⟨x :: xs, by rw [List.map_cons, List.map_cons, e, hx], fun z hz => ?_, ?_, ?_⟩
      · rcases List.mem_cons.mp hz with rfl | hz
        · have := abs_add_le (z - y) y
          rw [sub_add_cancel] at this
          linarith
        · exact b z hz
      · rw [List.sum_cons, List.sum_cons, List.length_cons]
        push_cast
        have := abs_add_le (x - y) (xs.sum - ys.sum)
        rw [show x + xs.sum - (y + ys.sum) = (x - y) + (xs.sum - ys.sum) by ring]
        linarith
      · rw [List.sum_cons, List.length_cons]
        push_cast
        have := abs_add_le y ys.sum
        linarith
  obtain ⟨xs, e, b, d, d2⟩ := hx
  have hl : l.length = xs.length := by simpa using congrArg List.length e
  obtain ⟨y, hy, hye⟩ := Libm.sum_acc l xs 2 e (by norm_num) (by
    have := two_pow_mono (m := 1) (n := 900) (by norm_num)
    rwa [pow_one] at this) b (by omega)
  rw [← h.length_eq] at d d2 ⊢
  have hc1 : (1 : ℝ) ≤ l.length := by exact_mod_cast h0
  have hc2 : (l.length : ℝ) ≤ 2 ^ 20 := by exact_mod_cast h1
  have hn := val_nat (F := F) (n := l.length) (by omega)
  generalize (l.length : ℝ) = n at *
  have hnp : 0 < n := by linarith
  have hd : |y / n - ys.sum / n| ≤ ε + 2 * n / 2 ^ 50 := by
    rw [← sub_div, abs_div, abs_of_pos hnp, div_le_iff₀ hnp]
    have := abs_add_le (y - xs.sum) (xs.sum - ys.sum)
    rw [sub_add_sub_cancel] at this
    have e2 : (ε + 2 * n / 2 ^ 50) * n = n * ε + n ^ 2 * 2 / 2 ^ 50 := by ring
    rw [e2]; linarith
  have hyb : |ys.sum / n| ≤ 1 + ε := by
    rw [abs_div, abs_of_pos hnp, div_le_iff₀ hnp]; linarith
  generalize ys.sum / n = Y at *
  obtain ⟨k1, k2⟩ := abs_le.mp hd
  obtain ⟨j1, j2⟩ := abs_le.mp hyb
  obtain ⟨z, hz, hze⟩ := rnd_err F (x := y / n) (B := 2) (by rw [abs_le]; constructor <;> norm_num at * <;> linarith) (by norm_num) (by
    have := two_pow_mono (m := 1) (n := 1000) (by norm_num)
    rwa [pow_one] at this)
  refine ⟨z, (Is.div (show Is _ y from hy) hn hnp.ne').trans hz, ?_⟩
  have := abs_add_le (z - y / n) (y / n - Y)
  rw [sub_add_sub_cancel] at this
  refine this.trans ((add_le_add hze hd).trans ?_)
  norm_num at *; linarith

end Visqol
