import Verif.Lemmas.IeeeFilter
import Verif.Props.Filter
import Verif.Spec.Finite

/-! # C44 in floating point: the filter obeys the biquad recurrence up to rounding -/

set_option linter.unusedSectionVars false

namespace Visqol

open Ieee

variable {F : Type} [Flt F] [Ieee F]

theorem number_is {a : F} {x : ℝ} (h : Is a x) : number a = x := by
  unfold number
  rw [h]

/-- One step of the filter, with the rounding errors of the output and of the two conditions. -/
theorem step_errors {num den : Taps F} {x z0 z1 : F} {q0 q1 q2 r1 r2 a b0 b1 Y : ℝ} (h0 : Is num.c0 q0) (h1 : Is num.c1 q1)
    (h2 : Is num.c2 q2) (hr1 : Is den.c1 r1) (hr2 : Is den.c2 r2) (hx : Is x a) (hz0 : Is z0 b0) (hz1 : Is z1 b1)
    (hY : 1 ≤ Y) (hbig : Y ≤ 2 ^ 990) (hq0 : |q0 * a| ≤ Y) (hq1 : |q1 * a| ≤ Y) (hq2 : |q2 * a| ≤ Y)
    (hR1 : |r1| ≤ 2) (hR2 : |r2| ≤ 1) (hb0 : |b0| ≤ 7 * Y) (hb1 : |b1| ≤ 3 * Y) :
    ∃ y, Is (num.c0 * x + z0) y ∧ |y - (q0 * a + b0)| ≤ 17 * (Y / 2 ^ 51) ∧ (|y| ≤ Y →
      ∃ c0 c1, Is (num.c1 * x + z1 - den.c1 * (num.c0 * x + z0)) c0 ∧ |c0 - (q1 * a + b1 - r1 * y)| ≤ 35 * (Y / 2 ^ 51) ∧ |c0| ≤ 7 * Y ∧
        Is (num.c2 * x - den.c2 * (num.c0 * x + z0)) c1 ∧ |c1 - (q2 * a - r2 * y)| ≤ 12 * (Y / 2 ^ 51) ∧ |c1| ≤ 3 * Y) := by
  have h16 : 16 * Y ≤ 2 ^ 1000 := by
    have : (2 : ℝ) ^ 1000 = 2 ^ 10 * 2 ^ 990 := by rw [← pow_add]
    generalize (2 : ℝ) ^ 1000 = A at *
    generalize (2 : ℝ) ^ 990 = B at *
    linarith
  have hu : 64 * (Y / 2 ^ 51) ≤ Y := by
    have : (1 : ℝ) / 2 ^ 51 ≤ 1 / 64 := by norm_num
    rw [div_eq_mul_one_div]
    nlinarith
  have hu0 : 0 ≤ Y / 2 ^ 51 := by positivity
  have hround : ∀ {v : ℝ} (c : ℝ), |v| ≤ c * Y → 1 ≤ c → c ≤ 16 → ∃ w, rnd F v = .fin w ∧ |w - v| ≤ c * (Y / 2 ^ 51) := by
    intro v c hv hc hc2
    obtain ⟨w, w1, w2⟩ := rnd_err F hv (by nlinarith) ((mul_le_mul_of_nonneg_right hc2 (by linarith)).trans h16)
    exact ⟨w, w1, by rw [← mul_div_assoc]; exact w2⟩
  clear h16 hbig
  generalize Y / 2 ^ 51 = u at *
  obtain ⟨w0, w1, w2⟩ := hround 1 (by rw [one_mul]; exact hq0) le_rfl (by norm_num)
  have hw : Is (num.c0 * x) w0 := by unfold Is; rw [Is.mul h0 hx, w1]
  simp only [abs_le] at *
  obtain ⟨y, y1, y2⟩ := hround (v := w0 + b0) 16 (by constructor <;> linarith) (by norm_num) le_rfl
  have hy : Is (num.c0 * x + z0) y := by unfold Is; rw [Is.add hw hz0, y1]
  refine ⟨y, hy, by constructor <;> linarith, fun hyY => ?_⟩
  have hr1y : -(2 * Y) ≤ r1 * y ∧ r1 * y ≤ 2 * Y := by
    rw [← abs_le, abs_mul]
    exact mul_le_mul (abs_le.mpr hR1) (abs_le.mpr hyY) (abs_nonneg _) (by norm_num)
  have hr2y : -Y ≤ r2 * y ∧ r2 * y ≤ Y := by
    rw [← abs_le, abs_mul]
    calc |r2| * |y| ≤ 1 * Y := mul_le_mul (abs_le.mpr hR2) (abs_le.mpr hyY) (abs_nonneg _) (by norm_num)
      _ = Y := one_mul _
  obtain ⟨s0, s1, s2⟩ := hround (v := q1 * a) 1 (by rw [one_mul]; exact hq1) le_rfl (by norm_num)
  have hs : Is (num.c1 * x) s0 := by unfold Is; rw [Is.mul h1 hx, s1]
  obtain ⟨t0, t1, t2⟩ := hround (v := s0 + b1) 8 (by constructor <;> linarith) (by norm_num) (by norm_num)
  have ht : Is (num.c1 * x + z1) t0 := by unfold Is; rw [Is.add hs hz1, t1]
  obtain ⟨p0, p1, p2⟩ := hround (v := r1 * y) 2 hr1y (by norm_num) (by norm_num)
  have hp : Is (den.c1 * (num.c0 * x + z0)) p0 := by unfold Is; rw [Is.mul hr1 hy, p1]
  obtain ⟨c0, k1, k2⟩ := hround (v := t0 - p0) 16 (by constructor <;> linarith) (by norm_num) le_rfl
  have hc0 : Is (num.c1 * x + z1 - den.c1 * (num.c0 * x + z0)) c0 := by unfold Is; rw [Is.sub ht hp, k1]
  obtain ⟨g0, g1, g2⟩ := hround (v := q2 * a) 1 (by rw [one_mul]; exact hq2) le_rfl (by norm_num)
  have hg : Is (num.c2 * x) g0 := by unfold Is; rw [Is.mul h2 hx, g1]
  obtain ⟨l0, l1, l2⟩ := hround (v := r2 * y) 1 (by rw [one_mul]; exact hr2y) le_rfl (by norm_num)
  have hl : Is (den.c2 * (num.c0 * x + z0)) l0 := by unfold Is; rw [Is.mul hr2 hy, l1]
  obtain ⟨c1, m1, m2⟩ := hround (v := g0 - l0) 4 (by constructor <;> linarith) (by norm_num) (by norm_num)
  have hc1 : Is (num.c2 * x - den.c2 * (num.c0 * x + z0)) c1 := by unfold Is; rw [Is.sub hg hl, m1]
  refine ⟨c0, c1, hc0, ?_, ?_, hc1, ?_, ?_⟩ <;> constructor <;> linarith

/-- The number of units of rounding error in output sample `n`. -/
def units (n : ℤ) : ℝ := if n = 0 then 17 else if n = 1 then 52 else 64

theorem recurrence_rounded {num den : Taps F} {q0 q1 q2 r1 r2 Y : ℝ} (h0 : Is num.c0 q0) (h1 : Is num.c1 q1)
    (h2 : Is num.c2 q2) (hr1 : Is den.c1 r1) (hr2 : Is den.c2 r2) (hY : 1 ≤ Y) (hbig : Y ≤ 2 ^ 990) (hR1 : |r1| ≤ 2) (hR2 : |r2| ≤ 1) :
    ∀ (x : List F) (z : F × F) (b0 b1 : ℝ) (n : ℤ), Is z.1 b0 → Is z.2 b1 → |b0| ≤ 7 * Y → |b1| ≤ 3 * Y →
      (∀ a ∈ x, ∃ v, Is a v ∧ |q0 * v| ≤ Y ∧ |q1 * v| ≤ Y ∧ |q2 * v| ≤ Y) →
      (∀ y ∈ (filterSignal num den x z).1, Bd Y y) → 0 ≤ n → n < x.length →
      |sampleAt ((filterSignal num den x z).1.map number) n -
        (q0 * sampleAt (x.map number) n + q1 * sampleAt (x.map number) (n - 1) + q2 * sampleAt (x.map number) (n - 2)
        - r1 * sampleAt ((filterSignal num den x z).1.map number) (n - 1) - r2 * sampleAt ((filterSignal num den x z).1.map number) (n - 2)
        + (if n = 0 then b0 else if n = 1 then b1 else 0))| ≤ units n * (Y / 2 ^ 51)
  | [], _, _, _, n, _, _, _, _, _, _, h0, h => by simp only [List.length_nil, CharP.cast_eq_zero] at h; omega
  | x :: xs, z, b0, b1, n, hz0, hz1, hb0, hb1, hx, hy, hn0, h => by
    obtain ⟨a, ha, a0, a1, a2⟩ := hx x (by simp)
    obtain ⟨y, y1, y2, y3⟩ := step_errors h0 h1 h2 hr1 hr2 ha hz0 hz1 hY hbig a0 a1 a2 hR1 hR2 hb0 hb1
    have hyY : |y| ≤ Y := by
      obtain ⟨y', e1, e2⟩ := hy (num.c0 * x + z.1) (by simp [filterSignal])
      have : y' = y := by rw [← number_is e1, number_is y1]
      rwa [this] at e2
    obtain ⟨c0, c1, k1, k2, k3, k4, k5, k6⟩ := y3 hyY
    simp only [filterSignal, List.map_cons, sampleAt_cons, number_is ha, number_is y1]
    by_cases hn : n = 0
    · subst hn
      simp only [if_true, units]
      rw [if_neg (by omega), if_neg (by omega), if_neg (by omega), if_neg (by omega)]
      simp only [sampleAt_neg _ _ (show (0 : ℤ) - 1 - 1 < 0 by omega), sampleAt_neg _ _ (show (0 : ℤ) - 2 - 1 < 0 by omega)]
      refine le_trans (le_of_eq ?_) y2
      congr 1
      ring
    have hl : (n : ℤ) < xs.length + 1 := by simpa using h
    have ih := recurrence_rounded h0 h1 h2 hr1 hr2 hY hbig hR1 hR2 xs (num.c1 * x + z.2 - den.c1 * (num.c0 * x + z.1),
      num.c2 * x - den.c2 * (num.c0 * x + z.1)) c0 c1 (n - 1) k1 k4 k3 k6 (fun a ha => hx a (by simp [ha]))
      (fun y hy' => hy y (by simp only [filterSignal, List.mem_cons]; exact .inr hy')) (by omega) (by omega)
    rw [if_neg hn, if_neg hn, if_neg hn]
    have hu0 : 0 ≤ Y / 2 ^ 51 := by positivity
    generalize Y / 2 ^ 51 = u at *
    by_cases h1 : n = 1
    · subst h1
      simp (disch := omega) only [if_pos, if_neg, if_true, sampleAt_neg, units] at ih ⊢
      simp only [abs_le] at *
      constructor <;> linarith
    by_cases h2 : n = 2
    · subst h2
      simp (disch := omega) only [if_pos, if_neg, if_true, sampleAt_neg, units] at ih ⊢
      simp only [abs_le] at *
      constructor <;> linarith
    · simp (disch := omega) only [if_neg, units] at ih ⊢
      rw [show n - 2 - 1 = n - 1 - 2 by ring]
      exact ih

/-- C44 in floating point: a stable section, started at rest, has finite outputs for up to `2^17` samples, and these obey the difference
equation up to `2^-45` times the largest of the outputs, the products of inputs and numerator coefficients, and 1. -/
theorem C44_rounded {num den : Taps F} {c m : ℕ} (h0 : Pw c num.c0) (h1 : Pw c num.c1) (h2 : Pw c num.c2) (hd : StableDen den)
    {x : List F} (hx : ∀ a ∈ x, Pw m a) (hn : x.length ≤ 2 ^ 17) (hcm : c + m ≤ 900) :
    (∀ y ∈ (filterSignal num den x (0.0, 0.0)).1, ∃ v, val y = .fin v) ∧
    ∀ Y : ℝ, 1 ≤ Y → (∀ y ∈ (filterSignal num den x (0.0, 0.0)).1, |number y| ≤ Y) →
      (∀ q ∈ [num.c0, num.c1, num.c2], ∀ a ∈ x, |number q * number a| ≤ Y) →
      ∀ n : ℤ, 0 ≤ n → n < x.length →
      |sampleAt ((filterSignal num den x (0.0, 0.0)).1.map number) n -
        (number num.c0 * sampleAt (x.map number) n + number num.c1 * sampleAt (x.map number) (n - 1)
          + number num.c2 * sampleAt (x.map number) (n - 2)
          - number den.c1 * sampleAt ((filterSignal num den x (0.0, 0.0)).1.map number) (n - 1)
          - number den.c2 * sampleAt ((filterSignal num den x (0.0, 0.0)).1.map number) (n - 2))| ≤ Y / 2 ^ 45 := by
  have hb := filter_bound h0 h1 h2 hd hx hn hcm
  refine ⟨fun y hy => ?_, fun Y hY hyY hqY n n0 n1 => ?_⟩
  · obtain ⟨v, v1, _⟩ := hb y hy
    exact ⟨v, v1⟩
  obtain ⟨q0, h0, a0⟩ := h0
  obtain ⟨q1, h1, a1⟩ := h1
  obtain ⟨q2, h2, a2⟩ := h2
  obtain ⟨r1, r2, hr1, hr2, hs, hs1⟩ := hd
  have hmul : ∀ {q a : ℝ}, |q| ≤ 2 ^ c → |a| ≤ 2 ^ m → |q * a| ≤ 2 ^ (c + m) := by
    intro q a h h'
    rw [abs_mul, pow_add]
    exact mul_le_mul h h' (abs_nonneg _) (by positivity)
  have hmY : (2 : ℝ) ^ (c + m + 38) ≤ 2 ^ 990 := two_pow_mono (by omega)
  have hmY' : (2 : ℝ) ^ (c + m) ≤ 2 ^ 990 := two_pow_mono (by omega)
  have hr2n : 0 ≤ r2 := by nlinarith [sq_nonneg r1]
  have key := recurrence_rounded h0 h1 h2 hr1 hr2 (Y := min Y (2 ^ 990)) (le_min hY (one_le_pow₀ (by norm_num))) (min_le_right _ _)
    (abs_le_of_sq_le_sq (by nlinarith) (by norm_num)) (abs_le.mpr ⟨by linarith, hs1.le⟩) x (0.0, 0.0) 0 0 n val_0 val_0
    (by rw [abs_zero]; positivity) (by rw [abs_zero]; positivity) (fun a ha => by
      obtain ⟨v, v1, v2⟩ := hx a ha
      refine ⟨v, v1, ?_⟩
      have k0 := hqY num.c0 (by simp) a ha
      have k1 := hqY num.c1 (by simp) a ha
      have k2 := hqY num.c2 (by simp) a ha
      rw [number_is v1] at k0 k1 k2
      rw [number_is h0] at k0
      rw [number_is h1] at k1
      rw [number_is h2] at k2
      exact ⟨le_min k0 ((hmul a0 v2).trans hmY'), le_min k1 ((hmul a1 v2).trans hmY'), le_min k2 ((hmul a2 v2).trans hmY')⟩) (fun y hy => by
      obtain ⟨v, v1, v2⟩ := hb y hy
      have := hyY y hy
      rw [number_is v1] at this
      exact ⟨v, v1, le_min this (v2.trans hmY)⟩) n0 n1
  rw [number_is h0, number_is h1, number_is h2, number_is hr1, number_is hr2]
  simp only [ite_self, add_zero] at key
  refine key.trans ?_
  have h64 : units n ≤ 64 := by unfold units; split_ifs <;> norm_num
  have hm : min Y ((2 : ℝ) ^ 990) ≤ Y := min_le_left _ _
  have hm0 : 0 ≤ min Y ((2 : ℝ) ^ 990) := le_min (by linarith) (by positivity)
  generalize min Y ((2 : ℝ) ^ 990) = M at *
  calc units n * (M / 2 ^ 51) ≤ 64 * (Y / 2 ^ 51) := by gcongr
    _ = Y / 2 ^ 45 := by ring

/-- The hypotheses of `C44_rounded`: a section with a double pole at one half, three samples. -/
example : Pw 0 (1.0 : F) ∧ StableDen (⟨1.0, -1.0, 0.25⟩ : Taps F) ∧ ∀ a ∈ ([1.0, 0.25, 1.0] : List F), Pw 0 a := by
  have h1 : Is (1.0 : F) 1 := val_1
  have h2 : Is (0.25 : F) (1 / 4) := val_quarter
  refine ⟨⟨1, h1, by norm_num⟩, ⟨-1, 1 / 4, h1.neg, h2, by norm_num, by norm_num⟩, ?_⟩
  intro a ha
  simp only [List.mem_cons, List.not_mem_nil, or_false] at ha
  rcases ha with rfl | rfl | rfl
  · exact ⟨1, h1, by norm_num⟩
  · exact ⟨_, h2, by norm_num [abs_le]⟩
  · exact ⟨1, h1, by norm_num⟩

end Visqol
