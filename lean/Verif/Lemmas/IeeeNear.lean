import Verif.Lemmas.IeeeScale
import Mathlib.Analysis.SpecialFunctions.Trigonometric.Bounds

/-! # Floating point: numbers known up to an error of about `2^-40` -/

set_option linter.unusedSectionVars false

namespace Visqol
open Ieee

variable {F : Type} [Flt F] [Ieee F]

/-- `s` is neither very small nor very large. -/
def Sc (n : ℕ) (s : ℝ) : Prop := 1 / 2 ^ n ≤ s ∧ s ≤ 2 ^ n

theorem Sc.pos {n : ℕ} {s : ℝ} (h : Sc n s) : 0 < s := lt_of_lt_of_le (by positivity) h.1

theorem Sc.mono {m n : ℕ} {s : ℝ} (h : Sc m s) (hm : m ≤ n) : Sc n s :=
  ⟨(div_le_div_of_nonneg_left (by norm_num) (by positivity) (two_pow_mono hm)).trans h.1, h.2.trans (two_pow_mono hm)⟩

theorem Sc.mul {m n : ℕ} {s t : ℝ} (hs : Sc m s) (ht : Sc n t) : Sc (m + n) (s * t) := by
  have h1 := hs.pos
  have h2 := ht.pos
  constructor
  · rw [pow_add, ← one_div_mul_one_div]
    exact mul_le_mul hs.1 ht.1 (by positivity) h1.le
  · rw [pow_add]
    exact mul_le_mul hs.2 ht.2 h2.le (by positivity)

theorem Sc.inv {n : ℕ} {s : ℝ} (hs : Sc n s) : Sc n (1 / s) := by
  have h1 := hs.pos
  constructor
  · exact one_div_le_one_div_of_le h1 hs.2
  · rw [div_le_iff₀ h1]
    calc (1 : ℝ) = 2 ^ n * (1 / 2 ^ n) := by field_simp
      _ ≤ 2 ^ n * s := mul_le_mul_of_nonneg_left hs.1 (by positivity)

theorem Sc.div {m n : ℕ} {s t : ℝ} (hs : Sc m s) (ht : Sc n t) : Sc (m + n) (s / t) := by
  rw [div_eq_mul_one_div]; exact hs.mul ht.inv

theorem Sc.one : Sc 0 (1 : ℝ) := by constructor <;> norm_num

/-- `a` is `s * x` up to `k` units of size `s * 2^-40`. -/
def Nr (s : ℝ) (a : F) (x k : ℝ) : Prop := ∃ y, Is a y ∧ |y - s * x| ≤ s * (k / 2 ^ 40)

theorem Nr.mono {s x k l : ℝ} {a : F} (hs : 0 ≤ s) (h : Nr s a x k) (hk : k ≤ l) : Nr s a x l := by
  obtain ⟨y, h1, h2⟩ := h
  exact ⟨y, h1, h2.trans (mul_le_mul_of_nonneg_left (div_le_div_of_nonneg_right hk (by positivity)) hs)⟩

theorem Nr.exact {a : F} {x : ℝ} (h : Is a x) : Nr 1 a x 0 := ⟨x, h, by simp⟩

theorem Nr.exact' {s : ℝ} (hs : 0 < s) {a : F} {x : ℝ} (h : Is a x) : Nr s a (x / s) 0 :=
  ⟨x, h, by rw [mul_div_cancel₀ _ hs.ne']; simp⟩

theorem Nr.zero {s : ℝ} {a : F} (h : Is a 0) : Nr s a 0 0 := ⟨0, h, by simp⟩

/-- Change of scale. -/
theorem Nr.rescale {s t c : ℝ} {a : F} {x k : ℝ} (ht : 0 < t) (hk : 0 ≤ k) (h : Nr s a x k) (hc : s ≤ c * t) : Nr t a (s * x / t) (c * k) := by
  obtain ⟨y, h1, h2⟩ := h
  refine ⟨y, h1, ?_⟩
  rw [mul_div_cancel₀ _ ht.ne']
  refine h2.trans ?_
  have := mul_le_mul_of_nonneg_right hc (div_nonneg hk (show (0 : ℝ) ≤ 2 ^ 40 by positivity))
  refine this.trans (le_of_eq ?_)
  ring

theorem Nr.round {s x k y : ℝ} {a : F} (hs : Sc 700 s) (h : val a = rnd F y) (hy : |y - s * x| ≤ s * (k / 2 ^ 40)) (hx : |x| ≤ 512)
    (hk : k ≤ 1099511627776) : Nr s a x (k + 1) := by
  have hs0 := hs.pos
  have hy1 : |y| ≤ s * 1024 := by
    have h1 : |y| ≤ |y - s * x| + |s * x| := by simpa using abs_add_le (y - s * x) (s * x)
    have h2 : |s * x| ≤ s * 512 := by rw [abs_mul, abs_of_pos hs0]; exact mul_le_mul_of_nonneg_left hx hs0.le
    have h3 : s * (k / 2 ^ 40) ≤ s * 1 := mul_le_mul_of_nonneg_left (by rw [div_le_one (by positivity)]; norm_num; exact hk) hs0.le
    linarith
  have hbig : |y| ≤ 2 ^ 1000 := by
    refine hy1.trans ?_
    calc s * 1024 ≤ 2 ^ 700 * 2 ^ 10 := mul_le_mul hs.2 (by norm_num) (by norm_num) (by positivity)
      _ = 2 ^ 710 := by rw [← pow_add]
      _ ≤ 2 ^ 1000 := two_pow_mono (by norm_num)
  obtain ⟨z, hz, he⟩ := rnd_acc (F := F) y hbig
  have htiny : (1 : ℝ) / 2 ^ 1000 ≤ s / 2 ^ 300 := by
    rw [le_div_iff₀ (by positivity)]
    refine le_trans (le_of_eq ?_) hs.1
    rw [show (1000 : ℕ) = 700 + 300 by norm_num, pow_add]
    field_simp
  have h300 : s / 2 ^ 300 ≤ s / 2 ^ 50 := div_le_div_of_nonneg_left hs0.le (by positivity) (two_pow_mono (by norm_num))
  refine ⟨z, h.trans hz, ?_⟩
  have h4 : |z - s * x| ≤ |z - y| + |y - s * x| := abs_sub_le _ _ _
  have h5 := htiny.trans h300
  clear htiny h300 hbig hs
  generalize (1 : ℝ) / 2 ^ 1000 = tiny at *
  have e : s * ((k + 1) / 2 ^ 40) = s * (k / 2 ^ 40) + s / 2 ^ 40 := by ring
  rw [e]
  norm_num at he h5 hy1 ⊢
  linarith

theorem Nr.neg {s x k : ℝ} {a : F} (h : Nr s a x k) : Nr s (-a) (-x) k := by
  obtain ⟨y, h1, h2⟩ := h
  refine ⟨-y, h1.neg, ?_⟩
  rw [show -y - s * -x = -(y - s * x) by ring, abs_neg]
  exact h2

theorem Nr.add {s x y k l : ℝ} {a b : F} (hs : Sc 700 s) (ha : Nr s a x k) (hb : Nr s b y l) (hx : |x + y| ≤ 512)
    (hk : k + l ≤ 1099511627776) : Nr s (a + b) (x + y) (k + l + 1) := by
  obtain ⟨u, h1, h2⟩ := ha
  obtain ⟨v, h3, h4⟩ := hb
  refine Nr.round hs (Is.add h1 h3) ?_ hx hk
  rw [show u + v - s * (x + y) = (u - s * x) + (v - s * y) by ring]
  refine (abs_add_le _ _).trans ((add_le_add h2 h4).trans (le_of_eq ?_))
  ring

theorem Nr.sub {s x y k l : ℝ} {a b : F} (hs : Sc 700 s) (ha : Nr s a x k) (hb : Nr s b y l) (hx : |x - y| ≤ 512)
    (hk : k + l ≤ 1099511627776) : Nr s (a - b) (x - y) (k + l + 1) := by
  obtain ⟨u, h1, h2⟩ := ha
  obtain ⟨v, h3, h4⟩ := hb
  refine Nr.round hs (Is.sub h1 h3) ?_ hx hk
  rw [show u - v - s * (x - y) = (u - s * x) - (v - s * y) by ring]
  refine (abs_sub _ _).trans ((add_le_add h2 h4).trans (le_of_eq ?_))
  ring

theorem Nr.mul {s t x y k l X Y : ℝ} {a b : F} (hs : 0 < s) (ht : 0 < t) (hst : Sc 700 (s * t)) (ha : Nr s a x k) (hb : Nr t b y l) (hx : |x| ≤ X)
    (hy : |y| ≤ Y) (hXY : X * Y ≤ 512) (hk0 : 0 ≤ k) (hl0 : 0 ≤ l) (hk : k ≤ 1048576) (hl : l ≤ 1048576)
    (hkl : X * l + Y * k ≤ 1048576) : Nr (s * t) (a * b) (x * y) (X * l + Y * k + 2) := by
  obtain ⟨u, h1, h2⟩ := ha
  obtain ⟨v, h3, h4⟩ := hb
  have hX : 0 ≤ X := (abs_nonneg _).trans hx
  have hY : 0 ≤ Y := (abs_nonneg _).trans hy
  have hxy : |x * y| ≤ 512 := by
    rw [abs_mul]
    exact (mul_le_mul hx hy (abs_nonneg _) hX).trans hXY
  have := Nr.round (F := F) (a := a * b) (x := x * y) (k := X * l + Y * k + 1) hst (Is.mul h1 h3) ?_ hxy (by linarith)
  · rw [show X * l + Y * k + 2 = X * l + Y * k + 1 + 1 by ring]; exact this
  · have hst0 : 0 < s * t := mul_pos hs ht
    have e : u * v - s * t * (x * y) = (u - s * x) * (v - t * y) + s * x * (v - t * y) + t * y * (u - s * x) := by ring
    rw [e]
    have b1 : |(u - s * x) * (v - t * y)| ≤ s * t * (1 / 2 ^ 40) := by
      rw [abs_mul]
      have hc : k / 2 ^ 40 * (l / 2 ^ 40) ≤ 1 / 2 ^ 40 := by
        have h5 : k * l ≤ 1048576 * 1048576 := mul_le_mul hk hl hl0 (by norm_num)
        norm_num at h5 ⊢
        linarith
      calc |u - s * x| * |v - t * y| ≤ s * (k / 2 ^ 40) * (t * (l / 2 ^ 40)) :=
            mul_le_mul h2 h4 (abs_nonneg _) (mul_nonneg hs.le (div_nonneg hk0 (by positivity)))
        _ = s * t * (k / 2 ^ 40 * (l / 2 ^ 40)) := by ring
        _ ≤ s * t * (1 / 2 ^ 40) := mul_le_mul_of_nonneg_left hc hst0.le
    have b2 : |s * x * (v - t * y)| ≤ s * t * (X * l / 2 ^ 40) := by
      rw [abs_mul, abs_mul, abs_of_pos hs]
      calc s * |x| * |v - t * y| ≤ s * X * (t * (l / 2 ^ 40)) :=
            mul_le_mul (mul_le_mul_of_nonneg_left hx hs.le) h4 (abs_nonneg _) (mul_nonneg hs.le hX)
        _ = s * t * (X * l / 2 ^ 40) := by ring
    have b3 : |t * y * (u - s * x)| ≤ s * t * (Y * k / 2 ^ 40) := by
      rw [abs_mul, abs_mul, abs_of_pos ht]
      calc t * |y| * |u - s * x| ≤ t * Y * (s * (k / 2 ^ 40)) :=
            mul_le_mul (mul_le_mul_of_nonneg_left hy ht.le) h2 (abs_nonneg _) (mul_nonneg ht.le hY)
        _ = s * t * (Y * k / 2 ^ 40) := by ring
    refine (abs_add_three _ _ _).trans ((add_le_add (add_le_add b1 b2) b3).trans (le_of_eq ?_))
    ring

theorem Nr.div {s t x y k l X : ℝ} {a b : F} (hs : 0 < s) (ht : 0 < t) (hst : Sc 700 (s / t)) (ha : Nr s a x k) (hb : Nr t b y l) (hx : |x| ≤ X)
    (hy : 1 / 2 ≤ y) (hX : X ≤ 256) (hl0 : 0 ≤ l) (hl : l ≤ 1048576)
    (hkl : 4 * k + 8 * X * l ≤ 1048576) : Nr (s / t) (a / b) (x / y) (4 * k + 8 * X * l + 1) := by
  obtain ⟨u, h1, h2⟩ := ha
  obtain ⟨v, h3, h4⟩ := hb
  have hX0 : 0 ≤ X := (abs_nonneg _).trans hx
  have hy0 : 0 < y := by linarith
  -- the denominator
  have hv : t * y / 2 ≤ v := by
    have h5 := (abs_le.mp h4).1
    have h6 : t * (l / 2 ^ 40) ≤ t * (y / 2) := by
      apply mul_le_mul_of_nonneg_left _ ht.le
      norm_num
      linarith
    linarith
  have hty : 0 < t * y := mul_pos ht hy0
  have hv0 : 0 < v := by linarith
  refine Nr.round hst (Is.div h1 h3 hv0.ne') ?_ ?_ (by linarith)
  · have e : u / v - s / t * (x / y) = ((u - s * x) * (t * y) - s * x * (v - t * y)) / (v * (t * y)) := by
      field_simp
      ring
    rw [e, abs_div, abs_of_pos (mul_pos hv0 hty), div_le_iff₀ (mul_pos hv0 hty)]
    have n1 : |(u - s * x) * (t * y) - s * x * (v - t * y)| ≤ s * (k / 2 ^ 40) * (t * y) + s * X * (t * (l / 2 ^ 40)) := by
      refine (abs_sub _ _).trans (add_le_add ?_ ?_)
      · rw [abs_mul, abs_of_pos hty]; exact mul_le_mul_of_nonneg_right h2 hty.le
      · rw [abs_mul, abs_mul, abs_of_pos hs]
        exact mul_le_mul (mul_le_mul_of_nonneg_left hx hs.le) h4 (abs_nonneg _) (mul_nonneg hs.le hX0)
    refine n1.trans ?_
    have hk : 0 ≤ k / 2 ^ 40 := by
      have := (abs_nonneg _).trans h2
      by_contra hc
      have : s * (k / 2 ^ 40) < 0 := mul_neg_of_pos_of_neg hs (not_le.mp hc)
      linarith
    have hL : 0 ≤ l / 2 ^ 40 := by positivity
    have m1 : s / t * ((4 * k + 8 * X * l) / 2 ^ 40) * (v * (t * y)) = s * (4 * (k / 2 ^ 40) + 8 * X * (l / 2 ^ 40)) * (y * v) := by
      field_simp
    rw [m1]
    generalize k / 2 ^ 40 = K at *
    generalize l / 2 ^ 40 = L at *
    have m2 : y * (t * y / 2) ≤ y * v := mul_le_mul_of_nonneg_left hv hy0.le
    have m3 : s * (4 * K + 8 * X * L) * (y * (t * y / 2)) ≤ s * (4 * K + 8 * X * L) * (y * v) :=
      mul_le_mul_of_nonneg_left m2 (mul_nonneg hs.le (by positivity))
    refine le_trans ?_ m3
    have m4 : s * (4 * K + 8 * X * L) * (y * (t * y / 2)) = s * K * (t * y) * (2 * y) + s * X * (t * L) * (4 * y ^ 2) := by ring
    rw [m4]
    apply add_le_add
    · exact le_mul_of_one_le_right (by positivity) (by linarith)
    · exact le_mul_of_one_le_right (by positivity) (by nlinarith)
  · rw [abs_div, abs_of_pos hy0, div_le_iff₀ hy0]
    nlinarith

variable [Libm F]

theorem exp_lip {x y : ℝ} (h : |y - x| ≤ 1 / 2) : |Real.exp y - Real.exp x| ≤ Real.exp x * (2 * |y - x|) := by
  have e : Real.exp y - Real.exp x = Real.exp x * (Real.exp (y - x) - 1) := by rw [mul_sub, mul_one, ← Real.exp_add]; ring_nf
  rw [e, abs_mul, abs_of_pos (Real.exp_pos x)]
  apply mul_le_mul_of_nonneg_left _ (Real.exp_pos x).le
  exact Real.abs_exp_sub_one_le (h.trans (by norm_num))

theorem Nr.exp {x k B : ℝ} {a : F} (h : Nr 1 a x k) (hx : |x| ≤ 400) (hB : Real.exp x ≤ B) (hk0 : 0 ≤ k) (hk : k ≤ 1048576) :
    Nr 1 (Flt.exp a) (Real.exp x) (B * (2 * k + 2)) := by
  obtain ⟨y, h1, h2⟩ := h
  rw [one_mul, one_mul] at h2
  have hy : |y - x| ≤ 1 / 2 := h2.trans (by norm_num; linarith)
  have hyx : |y| ≤ 500 := by
    have : |y| ≤ |y - x| + |x| := by simpa using abs_add_le (y - x) x
    linarith
  obtain ⟨z, hz, he⟩ := Libm.exp_acc a y h1 hyx
  refine ⟨z, hz, ?_⟩
  rw [one_mul, one_mul]
  have hl := exp_lip hy
  have hp := Real.exp_pos x
  have hl2 : |Real.exp y - Real.exp x| ≤ Real.exp x * (2 * (k / 2 ^ 40)) :=
    hl.trans (mul_le_mul_of_nonneg_left (by linarith) hp.le)
  have h2x : Real.exp y ≤ 2 * Real.exp x := by
    have h5 := (abs_le.mp hl).2
    have h6 : Real.exp x * (2 * |y - x|) ≤ Real.exp x * 1 := mul_le_mul_of_nonneg_left (by linarith) hp.le
    linarith
  have h7 : |z - Real.exp x| ≤ |z - Real.exp y| + |Real.exp y - Real.exp x| := abs_sub_le _ _ _
  calc |z - Real.exp x| ≤ 2 * Real.exp x / 2 ^ 40 + Real.exp x * (2 * (k / 2 ^ 40)) := by
        have : Real.exp y / 2 ^ 40 ≤ 2 * Real.exp x / 2 ^ 40 := div_le_div_of_nonneg_right h2x (by positivity)
        linarith
    _ = Real.exp x * ((2 * k + 2) / 2 ^ 40) := by ring
    _ ≤ B * ((2 * k + 2) / 2 ^ 40) := mul_le_mul_of_nonneg_right hB (by positivity)
    _ = B * (2 * k + 2) / 2 ^ 40 := by ring

theorem Nr.cos {x k : ℝ} {a : F} (h : Nr 1 a x k) (hx : |x| ≤ 1000) (hk : k ≤ 1048576) : Nr 1 (Flt.cos a) (Real.cos x) (k + 1) := by
  obtain ⟨y, h1, h2⟩ := h
  rw [one_mul, one_mul] at h2
  have hyx : |y| ≤ 2 ^ 20 := by
    have : |y| ≤ |y - x| + |x| := by simpa using abs_add_le (y - x) x
    norm_num at h2 ⊢
    linarith
  obtain ⟨z, hz, he⟩ := Libm.cos_acc a y h1 hyx
  refine ⟨z, hz, ?_⟩
  rw [one_mul, one_mul]
  have hl : |Real.cos y - Real.cos x| ≤ |y - x| := Real.abs_cos_sub_cos_le y x
  have h7 : |z - Real.cos x| ≤ |z - Real.cos y| + |Real.cos y - Real.cos x| := abs_sub_le _ _ _
  rw [add_div]
  linarith

theorem Nr.sin {x k : ℝ} {a : F} (h : Nr 1 a x k) (hx : |x| ≤ 1000) (hk : k ≤ 1048576) : Nr 1 (Flt.sin a) (Real.sin x) (k + 1) := by
  obtain ⟨y, h1, h2⟩ := h
  rw [one_mul, one_mul] at h2
  have hyx : |y| ≤ 2 ^ 20 := by
    have : |y| ≤ |y - x| + |x| := by simpa using abs_add_le (y - x) x
    norm_num at h2 ⊢
    linarith
  obtain ⟨z, hz, he⟩ := Libm.sin_acc a y h1 hyx
  refine ⟨z, hz, ?_⟩
  rw [one_mul, one_mul]
  have hl : |Real.sin y - Real.sin x| ≤ |y - x| := Real.abs_sin_sub_sin_le y x
  have h7 : |z - Real.sin x| ≤ |z - Real.sin y| + |Real.sin y - Real.sin x| := abs_sub_le _ _ _
  rw [add_div]
  linarith

end Visqol
