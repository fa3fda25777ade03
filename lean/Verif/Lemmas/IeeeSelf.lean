import Verif.Lemmas.IeeeNsim
import Verif.Lemmas.NsimReal
import Verif.Lemmas.IeeeFilter

/-! # A patch compared with itself in floating point -/

set_option linter.unusedSectionVars false

namespace Visqol
open Ieee
variable {F : Type} [Flt F] [Ieee F]

/-- Computed value within `k` rounding units of size `B` of `x`. -/
def Acc (B : ℝ) (a : F) (x k : ℝ) : Prop := ∃ y, Is a y ∧ |y - x| ≤ k * (B / 2 ^ 51)

theorem pow51_pos : (0 : ℝ) < 2 ^ 51 := by norm_num

/-- One product added to the running sum of the window. -/
theorem Acc.step {B : ℝ} (h1 : 1 ≤ B) (h2 : B ≤ 2 ^ 900) {p a w : F} {e y wt k W : ℝ} (hp : Acc B p e k) (he : |e| ≤ W * B)
    (ha : Is a y) (hy : |y| ≤ B) (hw : ∃ ω, val w = .fin ω ∧ |ω - wt| ≤ 1 / 2 ^ 51 * wt) (hw0 : 0 < wt) (hW : W + wt ≤ 1)
    (hw1 : wt ≤ 9 / 10) (hk : k ≤ 100) : Acc B (p + a * w) (e + y * wt) (k + 4) ∧ |e + y * wt| ≤ (W + wt) * B := by
  obtain ⟨z, hz, hze⟩ := hp
  obtain ⟨ω, hω, hωe⟩ := hw
  have hyw : |y * wt| ≤ wt * B := by
    rw [abs_mul, abs_of_pos hw0, mul_comm]
    exact mul_le_mul_of_nonneg_left hy hw0.le
  refine ⟨?_, by have := abs_add_le e (y * wt); linarith⟩
  have hB : 0 < B := by linarith
  have hU : 0 < B / 2 ^ 51 := by positivity
  have hU2 : 1000 * (B / 2 ^ 51) ≤ B / 10 := by
    rw [mul_div_assoc', div_le_div_iff₀ (by norm_num) (by norm_num)]
    norm_num; linarith
  have hp1 : |y * ω - y * wt| ≤ B / 2 ^ 51 := by
    rw [← mul_sub, abs_mul]
    have h3 : |ω - wt| ≤ 1 / 2 ^ 51 := hωe.trans (by
      have : (1 : ℝ) / 2 ^ 51 * wt ≤ 1 / 2 ^ 51 * 1 := mul_le_mul_of_nonneg_left (by linarith) (by norm_num)
      linarith)
    have := mul_le_mul hy h3 (abs_nonneg _) hB.le
    rwa [mul_one_div] at this
  have hb2 : B ≤ 2 ^ 1000 := h2.trans (two_pow_mono (by norm_num))
  have hb3 : 2 * B ≤ 2 ^ 1000 := by
    have h3 := two_pow_mono (m := 901) (n := 1000) (by norm_num)
    have h4 : (2 : ℝ) ^ 901 = 2 * 2 ^ 900 := by rw [pow_succ]; ring
    rw [h4] at h3
    exact (mul_le_mul_of_nonneg_left h2 (by norm_num)).trans h3
  have habs := abs_add_le (y * ω - y * wt) (y * wt)
  rw [sub_add_cancel] at habs
  have hwB : wt * B ≤ 9 / 10 * B := mul_le_mul_of_nonneg_right hw1 hB.le
  have hyo : |y * ω| ≤ B := by clear hb2 hb3 h2; linarith
  obtain ⟨t, ht, hte⟩ := rnd_err F hyo h1 hb2
  have hT : Is (a * w) t := (Is.mul ha hω).trans ht
  have hkB : k * (B / 2 ^ 51) ≤ 100 * (B / 2 ^ 51) := mul_le_mul_of_nonneg_right hk hU.le
  have hzt : |z + t - (e + y * wt)| ≤ (k + 2) * (B / 2 ^ 51) := by
    have e1 : z + t - (e + y * wt) = (z - e) + ((t - y * ω) + (y * ω - y * wt)) := by ring
    rw [e1]
    have i1 := abs_add_le (z - e) ((t - y * ω) + (y * ω - y * wt))
    have i2 := abs_add_le (t - y * ω) (y * ω - y * wt)
    clear hb2 hb3 h2
    linarith
  have hzb : |z + t| ≤ 2 * B := by
    have i1 := abs_add_le (z + t - (e + y * wt)) (e + y * wt)
    rw [sub_add_cancel] at i1
    have i2 := abs_add_le e (y * wt)
    have i3 : (W + wt) * B ≤ 1 * B := mul_le_mul_of_nonneg_right hW hB.le
    clear hb2 hb3 h2
    linarith
  obtain ⟨s, hs, hse⟩ := rnd_err F hzb (by linarith) hb3
  refine ⟨s, (Is.add hz hT).trans hs, ?_⟩
  have i1 := abs_add_le (s - (z + t)) (z + t - (e + y * wt))
  rw [sub_add_sub_cancel] at i1
  have e2 : 2 * B / 2 ^ 51 = 2 * (B / 2 ^ 51) := by ring
  rw [e2] at hse
  clear hb2 hb3 h2
  linarith

/-- The windowed average is computed to within 36 rounding units. -/
theorem nsimAvg_acc {B : ℝ} (h1 : 1 ≤ B) (h2 : B ≤ 2 ^ 900) {x : Nat → Nat → F} {y : Nat → Nat → ℝ}
    (hx : ∀ r c, Is (x r c) (y r c)) (hy : ∀ r c, |y r c| ≤ B) : Acc B (nsimAvg x) (nsimAvg y) 36 ∧ |nsimAvg y| ≤ B := by
  have w1 := lit_near (F := F) (m := 113033910173052) (e := 16) (x := 0.0113033910173052) (by norm_num) (by norm_num) (by norm_num)
  have w2 := lit_near (F := F) (m := 838251475442633) (e := 16) (x := 0.0838251475442633) (by norm_num) (by norm_num) (by norm_num)
  have w3 := lit_near (F := F) (m := 619485845753726) (e := 15) (x := 0.619485845753726) (by norm_num) (by norm_num) (by norm_num)
  have s0 : Acc B (0.0 : F) 0 0 := ⟨0, val_0, by simp⟩
  obtain ⟨s1, t1⟩ := s0.step h1 h2 (W := 0) (by simp) (hx 0 0) (hy 0 0) w1 (by norm_num) (by norm_num) (by norm_num) (by norm_num)
  obtain ⟨s2, t2⟩ := s1.step h1 h2 t1 (hx 1 0) (hy 1 0) w2 (by norm_num) (by norm_num) (by norm_num) (by norm_num)
  obtain ⟨s3, t3⟩ := s2.step h1 h2 t2 (hx 2 0) (hy 2 0) w1 (by norm_num) (by norm_num) (by norm_num) (by norm_num)
  obtain ⟨s4, t4⟩ := s3.step h1 h2 t3 (hx 0 1) (hy 0 1) w2 (by norm_num) (by norm_num) (by norm_num) (by norm_num)
  obtain ⟨s5, t5⟩ := s4.step h1 h2 t4 (hx 1 1) (hy 1 1) w3 (by norm_num) (by norm_num) (by norm_num) (by norm_num)
  obtain ⟨s6, t6⟩ := s5.step h1 h2 t5 (hx 2 1) (hy 2 1) w2 (by norm_num) (by norm_num) (by norm_num) (by norm_num)
  obtain ⟨s7, t7⟩ := s6.step h1 h2 t6 (hx 0 2) (hy 0 2) w1 (by norm_num) (by norm_num) (by norm_num) (by norm_num)
  obtain ⟨s8, t8⟩ := s7.step h1 h2 t7 (hx 1 2) (hy 1 2) w2 (by norm_num) (by norm_num) (by norm_num) (by norm_num)
  obtain ⟨s9, t9⟩ := s8.step h1 h2 t8 (hx 2 2) (hy 2 2) w1 (by norm_num) (by norm_num) (by norm_num) (by norm_num)
  have e : (nsimAvg y : ℝ) = 0 + y 0 0 * 0.0113033910173052 + y 1 0 * 0.0838251475442633 + y 2 0 * 0.0113033910173052 +
      y 0 1 * 0.0838251475442633 + y 1 1 * 0.619485845753726 + y 2 1 * 0.0838251475442633 + y 0 2 * 0.0113033910173052 +
      y 1 2 * 0.0838251475442633 + y 2 2 * 0.0113033910173052 := by
    simp only [nsimAvg, convSum, real_sci]
    norm_num
  rw [e]
  refine ⟨?_, ?_⟩
  · obtain ⟨z, hz, hze⟩ := s9
    exact ⟨z, hz, hze.trans (by norm_num)⟩
  · exact t9.trans (by norm_num)

theorem nsimAvg_shift (y : Nat → Nat → ℝ) (d : ℝ) : nsimAvg (fun r c => y r c - d) = nsimAvg y - d := by
  rw [nsimAvg_real', nsimAvg_real']
  simp only [mul_sub, Finset.sum_sub_distrib, ← Finset.sum_mul, nsimW_sum', one_mul]

/-- Levels of at most 256: the computed windowed mean, its computed square, and the computed windowed variance, which is hardly negative. -/
theorem variance_lower {x : Nat → Nat → F} {y : Nat → Nat → ℝ} (hx : ∀ r c, Is (x r c) (y r c)) (hy : ∀ r c, |y r c| ≤ 2 ^ 8) :
    ∃ m q v, Is (nsimAvg x) m ∧ |m| ≤ 2 ^ 9 ∧ Is (nsimAvg x * nsimAvg x) q ∧ 0 ≤ q ∧ q ≤ 2 ^ 20 ∧
      Is (nsimAvg (fun r c => x r c * x r c) - nsimAvg x * nsimAvg x) v ∧ -(1 / 2 ^ 27) ≤ v ∧ v ≤ 2 ^ 20 := by
  have hb1 := two_pow_mono (m := 8) (n := 900) (by norm_num)
  have hb2 := two_pow_mono (m := 16) (n := 900) (by norm_num)
  have hb3 := two_pow_mono (m := 20) (n := 1000) (by norm_num)
  obtain ⟨⟨m, hm, hme⟩, ha⟩ := nsimAvg_acc (F := F) (by norm_num) hb1 hx hy
  have hsq : ∀ r c, ∃ s, Is (x r c * x r c) s ∧ 0 ≤ s ∧ s ≤ 2 ^ 16 ∧ |s - y r c * y r c| ≤ 2 ^ 16 / 2 ^ 51 := by
    intro r c
    have h0 : y r c * y r c ≤ 2 ^ 16 := by
      have := mul_self_le_mul_self (abs_nonneg _) (hy r c)
      rw [abs_mul_abs_self] at this
      norm_num at this ⊢; linarith
    have h0' : |y r c * y r c| ≤ 2 ^ 16 := by rw [abs_of_nonneg (mul_self_nonneg _)]; exact h0
    obtain ⟨s, hs, hse⟩ := rnd_err F h0' (by norm_num) (hb2.trans (two_pow_mono (by norm_num)))
    refine ⟨s, (Is.mul (hx r c) (hx r c)).trans hs, rnd_nonneg hs (mul_self_nonneg _), ?_, hse⟩
    have h3 := rnd_upper (a := (Flt.ofNat (2 ^ 16) : F)) (c := ((2 ^ 16 : ℕ) : ℝ)) (val_nat (by norm_num)) hs (by norm_num at h0 ⊢; exact h0)
    exact_mod_cast h3
  choose s hs hs0 hs1 hse using hsq
  obtain ⟨⟨z, hz, hze⟩, hzb⟩ := nsimAvg_acc (F := F) (B := 2 ^ 16) (by norm_num) hb2 (x := fun r c => x r c * x r c) hs
    (fun r c => by rw [abs_of_nonneg (hs0 r c)]; exact hs1 r c)
  have hlow : nsimAvg (fun r c => y r c * y r c) - 2 ^ 16 / 2 ^ 51 ≤ nsimAvg s := by
    rw [← nsimAvg_shift]
    refine nsimAvg_mono fun r _ c _ => ?_
    have := (abs_le.mp (hse r c)).1
    linarith
  have hvar := nsim_var_nonneg y
  generalize nsimAvg (fun r c => y r c * y r c) = E2 at *
  generalize (nsimAvg s : ℝ) = S at *
  generalize (nsimAvg y : ℝ) = E at *
  have hm9 : |m| ≤ 2 ^ 9 := by
    have := abs_add_le (m - E) E
    rw [sub_add_cancel] at this
    norm_num at *; linarith
  have hmm : |m * m| ≤ 2 ^ 18 := by
    rw [abs_mul]
    have := mul_le_mul hm9 hm9 (abs_nonneg _) (by norm_num)
    norm_num at this ⊢; linarith
  have hdiff : |m * m - E * E| ≤ 36 * (2 ^ 8 / 2 ^ 51) * (3 * 2 ^ 8) := by
    have e1 : m * m - E * E = (m - E) * (m + E) := by ring
    rw [e1, abs_mul]
    have h3 : |m + E| ≤ 3 * 2 ^ 8 := by
      have := abs_add_le m E
      norm_num at *; linarith
    exact mul_le_mul hme h3 (abs_nonneg _) (by norm_num)
  obtain ⟨q, hq, hqe⟩ := rnd_err F hmm (by norm_num) (le_trans (two_pow_mono (by norm_num)) hb3)
  have hQ : Is (nsimAvg x * nsimAvg x) q := (Is.mul hm hm).trans hq
  have hq0 : 0 ≤ q := rnd_nonneg hq (mul_self_nonneg _)
  have a1 := abs_le.mp hqe
  have a2 := abs_le.mp hze
  have a3 := abs_le.mp hdiff
  have a4 := abs_le.mp hzb
  have a5 := abs_le.mp hmm
  obtain ⟨a1l, a1u⟩ := a1
  obtain ⟨a2l, a2u⟩ := a2
  obtain ⟨a3l, a3u⟩ := a3
  obtain ⟨a4l, a4u⟩ := a4
  obtain ⟨a5l, a5u⟩ := a5
  have hzq : |z - q| ≤ 2 ^ 19 := by
    clear hb1 hb2 hb3
    rw [abs_le]
    norm_num at *
    constructor <;> linarith
  obtain ⟨v, hv, hve⟩ := rnd_err F hzq (by norm_num) (le_trans (two_pow_mono (by norm_num)) hb3)
  obtain ⟨a6l, a6u⟩ := abs_le.mp hve
  obtain ⟨a7l, a7u⟩ := abs_le.mp hzq
  clear hb1 hb2 hb3
  refine ⟨m, q, v, hm, hm9, hQ, hq0, ?_, (Is.sub hz hQ).trans hv, ?_, ?_⟩
  · norm_num at *; linarith
  · norm_num at *; linarith
  · norm_num at *; linarith

/-- The constant of the structure term: 0.00045. -/
theorem c3_near [Libm F] : ∃ z, Is (nsimC3 : F) z ∧ 4 / 10000 ≤ z ∧ z ≤ 5 / 10000 := by
  obtain ⟨_, w, hw, hw'⟩ := Rel.mul (F := F) (a := 0.03) (x := 3 / 100)
    ⟨by norm_num, lit_near (F := F) (m := 3) (e := 2) (x := 3 / 100) (by norm_num) (by norm_num) (by norm_num)⟩
    (Rel.exact (val_1 (F := F)) (by norm_num)) (mid_of (by norm_num) (by norm_num)) (mid_of (by norm_num) (by norm_num))
    (by norm_num) le_rfl (by norm_num) (by norm_num)
  have hw2 : |w - 3 / 100| ≤ 1 / 100000 := by
    rw [mul_one] at hw'
    exact hw'.trans (by norm_num)
  clear hw'
  obtain ⟨a1, a2⟩ := abs_le.mp hw2
  have hwp : 0 < w := by linarith
  have e2 : w ^ (2 : ℝ) = w ^ 2 := by norm_cast
  have h1 : 0.00089 ≤ w ^ 2 := by norm_num; nlinarith
  have h2 : w ^ 2 ≤ 0.00091 := by norm_num; nlinarith
  norm_num at h1 h2
  obtain ⟨z, hz, hze⟩ := Libm.powf_acc (F := F) (0.03 * 1.0) 2.0 w 2 hw val_2 hwp (by
      rw [e2]
      refine (div_le_div_of_nonneg_left (by norm_num) (by positivity) (two_pow_mono (by norm_num : 20 ≤ 500))).trans ?_
      norm_num
      linarith) (by
      rw [e2]
      refine le_trans ?_ (two_pow_mono (by norm_num : 2 ≤ 500))
      norm_num
      linarith)
  rw [e2] at hze
  have hze2 : |z - w ^ 2| ≤ 1 / 100000 := hze.trans (by
    rw [div_le_iff₀ (by norm_num)]
    norm_num; linarith)
  obtain ⟨b1, b2⟩ := abs_le.mp hze2
  obtain ⟨y, hy, hye⟩ := rnd_err F (x := z / 2) (B := 1) (by rw [abs_le]; constructor <;> linarith) le_rfl
    (one_le_pow₀ (by norm_num))
  obtain ⟨d1, d2⟩ := abs_le.mp hye
  refine ⟨y, (Is.div (show Is _ z from hz) val_2 (by norm_num)).trans hy, ?_, ?_⟩
  · norm_num at *; linarith
  · norm_num at *; linarith

/-- Relative accuracy of a rounding, with a tiny absolute term. -/
theorem rnd_rel' (F : Type) [Flt F] [Ieee F] {x : ℝ} (hx : |x| ≤ 2 ^ 100) : ∃ y, rnd F x = .fin y ∧ |y - x| ≤ |x| / 2 ^ 52 + 1 / 2 ^ 200 := by
  obtain ⟨y, hy, he⟩ := rnd_acc (F := F) x (hx.trans (two_pow_mono (by norm_num)))
  exact ⟨y, hy, he.trans (add_le_add le_rfl (tiny_le_pow (by norm_num)))⟩

/-- The square root of a computed square is the absolute value, nearly. -/
theorem sqrt_square {v e : ℝ} (he : |e - v * v| ≤ |v * v| / 2 ^ 52 + 1 / 2 ^ 200) (h0 : 0 ≤ e) :
    |Real.sqrt e - abs v| ≤ |v| / 2 ^ 52 + 1 / 2 ^ 100 := by
  have hA := abs_nonneg v
  have hvv : v * v = |v| * |v| := (abs_mul_abs_self v).symm
  rw [abs_of_nonneg (mul_self_nonneg v), hvv] at he
  generalize |v| = A at *
  obtain ⟨h1, h2⟩ := abs_le.mp he
  have hu : (0 : ℝ) < 1 / 2 ^ 52 := by positivity
  have hu1 : (1 : ℝ) / 2 ^ 52 ≤ 1 := by norm_num
  have ht : (0 : ℝ) < 1 / 2 ^ 100 := by positivity
  have htt : (1 : ℝ) / 2 ^ 200 = 1 / 2 ^ 100 * (1 / 2 ^ 100) := by
    rw [div_mul_div_comm, ← pow_add, one_mul]
  rw [htt, ← mul_one_div (A * A)] at h1 h2
  rw [← mul_one_div A]
  clear he htt hvv
  generalize (1 : ℝ) / 2 ^ 52 = u at *
  generalize (1 : ℝ) / 2 ^ 100 = t at *
  rw [abs_le]
  constructor
  · by_cases hn : A - (A * u + t) ≤ 0
    · have := Real.sqrt_nonneg e; linarith
    · have : A - (A * u + t) ≤ Real.sqrt e := by
        apply Real.le_sqrt_of_sq_le
        have hAu : 0 ≤ A * u := mul_nonneg hA hu.le
        have hAuA : A * u * (A * (1 - u)) ≥ 0 := mul_nonneg hAu (mul_nonneg hA (by linarith))
        have k1 : 0 ≤ t * (A * (1 - u) - t) := mul_nonneg ht.le (by linarith)
        nlinarith
      linarith
  · have : Real.sqrt e ≤ A + (A * u + t) := by
      apply Real.sqrt_le_iff.mpr ⟨by positivity, ?_⟩
      have : 0 ≤ A * (A * u) := by positivity
      have : 0 ≤ A * t := by positivity
      have : 0 ≤ A * u * t := by positivity
      nlinarith [sq_nonneg (A * u)]
    linarith

/-- The structure term of a patch with itself. -/
theorem structure_self [Libm F] {a : F} {v δ : ℝ} (ha : Is a v) (hδ0 : 0 ≤ δ) (hδ : δ ≤ 1 / 2 ^ 19) (h1 : -δ ≤ v) (h2 : v ≤ 2 ^ 26) :
    ∃ s, Is ((a + nsimC3) / strDenom (a * a)) s ∧ |s - 1| ≤ 5010 * δ + 1 / 10 ^ 6 := by
  obtain ⟨c, hc, c1, c2⟩ := c3_near (F := F)
  have hA0 := abs_nonneg v
  have hv : |v| ≤ 2 ^ 26 := by rw [abs_le]; constructor <;> norm_num at * <;> linarith
  have hd : |v - abs v| ≤ 2 * δ := by
    rcases le_or_gt 0 v with h | h
    · rw [abs_of_nonneg h, sub_self, abs_zero]; linarith
    · rw [abs_of_neg h, abs_le]; constructor <;> linarith
  have hp100 := two_pow_mono (m := 52) (n := 100) (by norm_num)
  have hp50 := two_pow_mono (m := 28) (n := 100) (by norm_num)
  have hvv : |v * v| ≤ 2 ^ 52 := by
    rw [abs_mul]
    have := mul_le_mul hv hv (abs_nonneg _) (by norm_num)
    norm_num at this ⊢; linarith
  obtain ⟨e, he, hee⟩ := rnd_rel' F (hvv.trans hp100)
  have he0 : 0 ≤ e := rnd_nonneg he (mul_self_nonneg v)
  have hE : Is (a * a) e := (Is.mul ha ha).trans he
  have hsq := sqrt_square hee he0
  have ht1 : (1 : ℝ) / 2 ^ 100 ≤ 1 / 2 ^ 80 := div_le_div_of_nonneg_left (by norm_num) (by positivity) (two_pow_mono (by norm_num))
  have ht2 : (1 : ℝ) / 2 ^ 200 ≤ 1 / 2 ^ 80 := div_le_div_of_nonneg_left (by norm_num) (by positivity) (two_pow_mono (by norm_num))
  have hr0 := Real.sqrt_nonneg e
  generalize hrr : Real.sqrt e = R at *
  have hR : |R| ≤ 2 ^ 28 := by
    clear hee hp100 hp50
    obtain ⟨k1, k2⟩ := abs_le.mp hsq
    rw [abs_of_nonneg hr0]
    generalize (1 : ℝ) / 2 ^ 100 = t at *
    generalize (1 : ℝ) / 2 ^ 200 = t' at *
    norm_num at *; linarith
  obtain ⟨r, hr, hre⟩ := rnd_rel' F (hR.trans hp50)
  have hrn : 0 ≤ r := rnd_nonneg hr hr0
  have hRt : Is (Flt.sqrt (a * a)) r := by
    have := hE.sqrt he0
    rw [hrr] at this
    exact this.trans hr
  rw [abs_of_nonneg hr0] at hre
  have hrA : |r - abs v| ≤ |v| / 2 ^ 50 + 1 / 2 ^ 70 := by
    clear hee hp100 hp50 hR
    obtain ⟨k1, k2⟩ := abs_le.mp hsq
    obtain ⟨k3, k4⟩ := abs_le.mp hre
    generalize (1 : ℝ) / 2 ^ 100 = t at *
    generalize (1 : ℝ) / 2 ^ 200 = t' at *
    rw [abs_le]
    norm_num at *
    constructor <;> linarith
  clear hsq hre hee hp100
  obtain ⟨k1, k2⟩ := abs_le.mp hrA
  have hN1 : |v + c| ≤ 2 ^ 28 := by
    obtain ⟨k3, k4⟩ := abs_le.mp hv
    clear hp50
    rw [abs_le]; constructor <;> norm_num at * <;> linarith
  have hD1 : |r + c| ≤ 2 ^ 28 := by
    rw [abs_of_nonneg (by linarith)]
    clear hp50
    norm_num at *; linarith
  obtain ⟨N, hN, hNe⟩ := rnd_rel' F (hN1.trans hp50)
  obtain ⟨D, hD, hDe⟩ := rnd_rel' F (hD1.trans hp50)
  rw [abs_of_nonneg (by linarith : 0 ≤ r + c)] at hDe
  have hvc : |v + c| ≤ |v| + c := by
    have := abs_add_le v c
    rwa [abs_of_nonneg (by linarith : 0 ≤ c)] at this
  clear hp50
  obtain ⟨n1, n2⟩ := abs_le.mp hNe
  obtain ⟨d1, d2⟩ := abs_le.mp hDe
  obtain ⟨v1, v2⟩ := abs_le.mp hd
  have hDl : (|v| + c) * (999 / 1000) ≤ D := by
    generalize (1 : ℝ) / 2 ^ 200 = t' at *
    norm_num at *; linarith
  have hDp : 0 < D := lt_of_lt_of_le (by positivity) hDl
  have hND : |N - D| ≤ 2 * δ + (|v| + c) / 2 ^ 45 := by
    generalize (1 : ℝ) / 2 ^ 200 = t' at *
    rw [abs_le]
    norm_num at *
    constructor <;> linarith
  have hq : |N / D - 1| ≤ 5010 * δ + 1 / 10 ^ 7 := by
    have : N / D - 1 = (N - D) / D := by field_simp
    rw [this, abs_div, abs_of_pos hDp, div_le_iff₀ hDp]
    refine hND.trans ?_
    have hD2 : 39 / 100000 ≤ D := by clear hND hDe hNe; linarith
    have k1 : 5010 * δ * (3996 / 10000000) ≤ 5010 * δ * D := mul_le_mul_of_nonneg_left (by linarith) (by linarith)
    have k2 : (|v| + c) / 2 ^ 45 ≤ 1 / 10 ^ 7 * D := by norm_num at *; linarith
    rw [add_mul]
    linarith
  obtain ⟨q1, q2⟩ := abs_le.mp hq
  obtain ⟨s, hs, hse⟩ := rnd_err F (x := N / D) (B := 2) (by rw [abs_le]; constructor <;> norm_num at * <;> linarith) (by norm_num) (by
    have := two_pow_mono (m := 1) (n := 1000) (by norm_num)
    rwa [pow_one] at this)
  refine ⟨s, ?_, ?_⟩
  · unfold strDenom
    rw [Is.lt hE val_0, decide_eq_false (not_lt.mpr he0), if_neg (by simp)]
    have i1 : Is (a + nsimC3) N := (Is.add ha hc).trans hN
    have i2 : Is (Flt.sqrt (a * a) + nsimC3) D := (Is.add hRt hc).trans hD
    exact (Is.div i1 i2 hDp.ne').trans hs
  · have := abs_add_le (s - N / D) (N / D - 1)
    rw [sub_add_sub_cancel] at this
    refine this.trans ((add_le_add hse hq).trans ?_)
    norm_num; linarith

/-- One cell of the comparison of a patch with itself, given the computed variance. -/
theorem simCell_self_core [Libm F] {x : Nat → Nat → F} {q v δ : ℝ} (hq : Is (nsimAvg x * nsimAvg x) q) (hq0 : 0 ≤ q) (hq1 : q ≤ 2 ^ 26)
    (hv : Is (nsimAvg (fun r c => x r c * x r c) - nsimAvg x * nsimAvg x) v) (hδ0 : 0 ≤ δ) (hδ : δ ≤ 1 / 2 ^ 19) (hv1 : -δ ≤ v) (hv2 : v ≤ 2 ^ 26) :
    ∃ s, Is (simCell x x) s ∧ |s - 1| ≤ 5010 * δ + 2 / 10 ^ 6 := by
  obtain ⟨s, hs, hse⟩ := structure_self hv hδ0 hδ hv1 hv2
  obtain ⟨c, hc, c1, c2⟩ := c1_bounds (F := F)
  have hcp : 0 < c := lt_of_lt_of_le (by positivity) c1
  have h21 : (2 : ℝ) ^ 27 ≤ 2 ^ 1000 := two_pow_mono (by norm_num)
  have h22 : (2 : ℝ) ^ 29 ≤ 2 ^ 1000 := two_pow_mono (by norm_num)
  obtain ⟨d, hd, hde⟩ := rnd_double F (x := q * 2) (B := 2 ^ 27) (by rw [abs_of_nonneg (by linarith)]; clear h21 h22; norm_num at *; linarith)
    (by norm_num) h21
  have hd0 : 0 ≤ d := rnd_nonneg hd (by linarith)
  rw [abs_of_nonneg hd0] at hde
  obtain ⟨g, hg, _⟩ := rnd_double F (x := d + c) (B := 2 ^ 29) (by rw [abs_of_nonneg (by linarith)]; clear h21 h22; norm_num at *; linarith)
    (by norm_num) h22
  have hgl : c ≤ g := rnd_lower hc hg (by linarith)
  have i1 : Is (nsimAvg x * nsimAvg x * 2.0 + nsimC1) g :=
    (Is.add ((Is.mul hq val_2).trans hd) hc).trans hg
  have i2 : Is (nsimAvg x * nsimAvg x + nsimAvg x * nsimAvg x + nsimC1) g := by
    refine (Is.add (x := d) ((Is.add hq hq).trans ?_) hc).trans hg
    rw [← hd]; congr 1; ring
  have i3 : Is ((nsimAvg x * nsimAvg x * 2.0 + nsimC1) / (nsimAvg x * nsimAvg x + nsimAvg x * nsimAvg x + nsimC1)) 1 := by
    refine (Is.div i1 i2 (by linarith)).trans ?_
    rw [div_self (by linarith), rnd_one]
  obtain ⟨s1, s2⟩ := abs_le.mp hse
  obtain ⟨z, hz, hze⟩ := rnd_err F (x := 1 * s) (B := 2) (by rw [abs_le]; constructor <;> norm_num at * <;> linarith) (by norm_num)
    (le_trans (by norm_num) h21)
  refine ⟨z, (Is.mul i3 hs).trans hz, ?_⟩
  rw [one_mul] at hze
  have := abs_add_le (z - s) (s - 1)
  rw [sub_add_sub_cancel] at this
  refine this.trans ((add_le_add hze hse).trans ?_)
  norm_num; linarith

/-- One cell of the comparison of a patch with itself. -/
theorem simCell_self_near [Libm F] {x : Nat → Nat → F} (hx : ∀ r c, Pw 8 (x r c)) :
    ∃ s, Is (simCell x x) s ∧ |s - 1| ≤ 7 / 10 ^ 5 := by
  choose y hy hyb using hx
  obtain ⟨m, q, v, hm, hm9, hq, hq0, hq1, hv, hv1, hv2⟩ := variance_lower hy hyb
  obtain ⟨s, hs, hse⟩ := simCell_self_core hq hq0 (hq1.trans (by norm_num)) hv (by positivity) (by norm_num) hv1 (hv2.trans (by norm_num))
  exact ⟨s, hs, hse.trans (by norm_num)⟩

/-- A mean of numbers near one is near one. -/
theorem mean_one [Libm F] {l : List F} {ε : ℝ} (h : ∀ a ∈ l, ∃ x, Is a x ∧ |x - 1| ≤ ε) (hε : ε ≤ 1 / 2) (h0 : 0 < l.length)
    (h1 : l.length ≤ 2 ^ 20) : ∃ y, Is (Flt.sum l / Flt.ofNat l.length) y ∧ |y - 1| ≤ ε + 1 / 10 ^ 6 := by
  have hx : ∃ xs : List ℝ, l.map val = xs.map .fin ∧ (∀ x ∈ xs, |x| ≤ 2) ∧ |xs.sum - xs.length| ≤ xs.length * ε := by
    clear h0 h1
    induction l with
    | nil => exact ⟨[], rfl, by simp, by simp⟩
    | cons a l ih =>
      obtain ⟨xs, e, b, d⟩ := ih fun a ha => h a (List.mem_cons_of_mem _ ha)
      obtain ⟨x, hx, hb⟩ := h a List.mem_cons_self
      refine ⟨x :: xs, by rw [List.map_cons, List.map_cons, e, hx], fun y hy => ?_, ?_⟩
      · rcases List.mem_cons.mp hy with rfl | hy
        · obtain ⟨k1, k2⟩ := abs_le.mp hb
          rw [abs_le]; constructor <;> linarith
        · exact b y hy
      · rw [List.sum_cons, List.length_cons]
        push_cast
        have := abs_add_le (x - 1) (xs.sum - xs.length)
        rw [show x + xs.sum - ((xs.length : ℝ) + 1) = (x - 1) + (xs.sum - xs.length) by ring]
        linarith
  obtain ⟨xs, e, b, d⟩ := hx
  have hl : l.length = xs.length := by simpa using congrArg List.length e
  obtain ⟨y, hy, hye⟩ := Libm.sum_acc l xs 2 e (by norm_num) (by
    have := two_pow_mono (m := 1) (n := 900) (by norm_num)
    rwa [pow_one] at this) b (by omega)
  rw [← hl] at d
  have hc1 : (1 : ℝ) ≤ l.length := by exact_mod_cast h0
  have hc2 : (l.length : ℝ) ≤ 2 ^ 20 := by exact_mod_cast h1
  have hn := val_nat (F := F) (n := l.length) (by omega)
  generalize (l.length : ℝ) = n at *
  have hnp : 0 < n := by linarith
  have hd : |y / n - 1| ≤ ε + 2 * n / 2 ^ 50 := by
    have e1 : y / n - 1 = (y - n) / n := by field_simp
    rw [e1, abs_div, abs_of_pos hnp, div_le_iff₀ hnp]
    have := abs_add_le (y - xs.sum) (xs.sum - n)
    rw [sub_add_sub_cancel] at this
    have e2 : (ε + 2 * n / 2 ^ 50) * n = n * ε + n ^ 2 * 2 / 2 ^ 50 := by ring
    rw [e2]; linarith
  obtain ⟨k1, k2⟩ := abs_le.mp hd
  obtain ⟨z, hz, hze⟩ := rnd_err F (x := y / n) (B := 2) (by rw [abs_le]; constructor <;> norm_num at * <;> linarith) (by norm_num) (by
    have := two_pow_mono (m := 1) (n := 1000) (by norm_num)
    rwa [pow_one] at this)
  refine ⟨z, (Is.div (show Is _ y from hy) hn hnp.ne').trans hz, ?_⟩
  have := abs_add_le (z - y / n) (y / n - 1)
  rw [sub_add_sub_cancel] at this
  refine this.trans ((add_le_add hze hd).trans ?_)
  norm_num at *; linarith

end Visqol
