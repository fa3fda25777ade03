import Verif.Lemmas.IeeeCpx
import Verif.Lemmas.IeeeSilent
import Mathlib.Analysis.Complex.ExponentialBounds

/-! # Floating point: complex expressions of the filter design, with error bounds -/

set_option linter.unusedSectionVars false

namespace Visqol
open Ieee

variable {F : Type} [Flt F] [Ieee F]

theorem Is.mul_zero_left {a b : F} {y : ℝ} (ha : Is a 0) (hb : Is b y) : Is (a * b) 0 := by
  have := ha.mul hb; rw [zero_mul, rnd_zero] at this; exact this
theorem Is.mul_zero_right {a b : F} {x : ℝ} (ha : Is a x) (hb : Is b 0) : Is (a * b) 0 := by
  have := ha.mul hb; rw [mul_zero, rnd_zero] at this; exact this
theorem Is.add_zeros {a b : F} (ha : Is a 0) (hb : Is b 0) : Is (a + b) 0 := by
  have := ha.add hb; rw [add_zero, rnd_zero] at this; exact this
theorem Is.sub_zeros {a b : F} (ha : Is a 0) (hb : Is b 0) : Is (a - b) 0 := by
  have := ha.sub hb; rw [sub_zero, rnd_zero] at this; exact this
theorem Is.zero_div {a b : F} {y : ℝ} (ha : Is a 0) (hb : Is b y) (h : y ≠ 0) : Is (a / b) 0 := by
  have := ha.div hb h; rw [_root_.zero_div, rnd_zero] at this; exact this
theorem Is.neg_zero {a : F} (ha : Is a 0) : Is (-a) 0 := by
  have := ha.neg; rwa [_root_.neg_zero] at this

theorem Nr.is {s x k : ℝ} {a : F} (h : Nr s a x k) : ∃ y, Is a y := ⟨h.choose, h.choose_spec.1⟩

/-- Product, with the results given. -/
theorem Nr.mulA {s t u x y z k l m X Y : ℝ} {a b : F} (hs : Sc 100 s) (ht : Sc 100 t) (ha : Nr s a x k) (hb : Nr t b y l)
    (hx : |x| ≤ X) (hy : |y| ≤ Y) (hu : s * t = u) (hz : x * y = z) (hm : X * l + Y * k + 2 ≤ m := by norm_num)
    (hXY : X * Y ≤ 512 := by norm_num) (hk0 : 0 ≤ k := by norm_num) (hl0 : 0 ≤ l := by norm_num) (hk : k ≤ 1048576 := by norm_num)
    (hl : l ≤ 1048576 := by norm_num) (hkl : X * l + Y * k ≤ 1048576 := by norm_num) : Nr u (a * b) z m := by
  subst hu hz
  exact (Nr.mul hs.pos ht.pos ((hs.mul ht).mono (by norm_num)) ha hb hx hy hXY hk0 hl0 hk hl hkl).mono (hs.mul ht).pos.le hm

theorem Nr.to_one {s x y k : ℝ} {a : F} (h : Nr s a x k) (hk : 0 ≤ k) (hs : s ≤ 1) (hy : s * x = y) : Nr 1 a y k := by
  have := Nr.rescale (t := 1) (c := 1) one_pos hk h (by linarith)
  rwa [div_one, one_mul, hy] at this

/-! ## Real quantities held as complex numbers: the imaginary part is zero -/

/-- Real up to rounding, with imaginary part zero. -/
def CR (s : ℝ) (a : Cpx F) (x k : ℝ) : Prop := Nr s a.re x k ∧ Is a.im 0

theorem CR.mono {s x k l : ℝ} {a : Cpx F} (h : CR s a x k) (hs : 0 ≤ s) (hk : k ≤ l) : CR s a x l := ⟨h.1.mono hs hk, h.2⟩

theorem CR.smul {s t u x y z k l m X Y : ℝ} {a : Cpx F} {b : F} (hs : Sc 100 s) (ht : Sc 100 t) (ha : CR s a x k) (hb : Nr t b y l)
    (hx : |x| ≤ X) (hy : |y| ≤ Y) (hu : s * t = u) (hz : x * y = z) (hm : X * l + Y * k + 2 ≤ m := by norm_num)
    (hXY : X * Y ≤ 512 := by norm_num) (hk0 : 0 ≤ k := by norm_num) (hl0 : 0 ≤ l := by norm_num) (hk : k ≤ 1048576 := by norm_num)
    (hl : l ≤ 1048576 := by norm_num) (hkl : X * l + Y * k ≤ 1048576 := by norm_num) : CR u (a.smul b) z m := by
  obtain ⟨v, hv⟩ := hb.is
  exact ⟨Nr.mulA hs ht ha.1 hb hx hy hu hz hm hXY hk0 hl0 hk hl hkl, ha.2.mul_zero_left hv⟩

theorem CR.to_one {s x y k : ℝ} {a : Cpx F} (h : CR s a x k) (hk : 0 ≤ k) (hs : s ≤ 1) (hy : s * x = y) : CR 1 a y k :=
  ⟨h.1.to_one hk hs hy, h.2⟩

theorem CR.neg {s x k : ℝ} {a : Cpx F} (h : CR s a x k) : CR s a.neg (-x) k := ⟨h.1.neg, h.2.neg_zero⟩

theorem CR.add {s x y k l : ℝ} {a b : Cpx F} (hs : Sc 700 s) (ha : CR s a x k) (hb : CR s b y l) (hx : |x + y| ≤ 512)
    (hk : k + l ≤ 1099511627776) : CR s (a.add b) (x + y) (k + l + 1) := ⟨ha.1.add hs hb.1 hx hk, ha.2.add_zeros hb.2⟩

theorem CR.sub {s x y k l : ℝ} {a b : Cpx F} (hs : Sc 700 s) (ha : CR s a x k) (hb : CR s b y l) (hx : |x - y| ≤ 512)
    (hk : k + l ≤ 1099511627776) : CR s (a.sub b) (x - y) (k + l + 1) := ⟨ha.1.sub hs hb.1 hx hk, ha.2.sub_zeros hb.2⟩

/-- The squared modulus of a real quantity near its scale. -/
theorem CR.sq {t l : ℝ} {b : Cpx F} (ht : Sc 100 t) (hb : CR t b 1 l) (hl0 : 0 ≤ l) (hl : l ≤ 10000) :
    Nr (t * t) (b.re * b.re + b.im * b.im) 1 (2 * l + 3) ∧ ∃ y, Is (b.re * b.re + b.im * b.im) y ∧ y ≠ 0 := by
  have h1 := Nr.mulA ht ht hb.1 hb.1 (X := 1) (Y := 1) (m := 2 * l + 2) (by norm_num) (by norm_num) rfl (mul_one (1 : ℝ)) (by linarith)
    (by norm_num) hl0 hl0 (by linarith) (by linarith) (by linarith)
  have hst : Sc 700 (t * t) := (ht.mul ht).mono (by norm_num)
  have h2 := Nr.add hst h1 (Nr.zero (s := t * t) (hb.2.mul_zero_left hb.2)) (by norm_num) (by linarith)
  rw [add_zero, add_zero] at h2
  have h3 : Nr (t * t) (b.re * b.re + b.im * b.im) 1 (2 * l + 3) := h2.mono hst.pos.le (by linarith)
  refine ⟨h3, ?_⟩
  obtain ⟨y, hy, he⟩ := h3
  refine ⟨y, hy, ?_⟩
  rintro rfl
  rw [zero_sub, abs_neg, mul_one, abs_of_pos hst.pos] at he
  have hlt : (2 * l + 3) / 2 ^ 40 < 1 := by rw [div_lt_one (by positivity)]; norm_num; linarith
  have := mul_lt_mul_of_pos_left hlt hst.pos
  linarith

theorem CR.div {s t u x k l m X : ℝ} {a b : Cpx F} (hs : Sc 100 s) (ht : Sc 100 t) (ha : CR s a x k) (hb : CR t b 1 l)
    (hx : |x| ≤ X) (hu : s / t = u) (hm : 4 * (X * l + k + 3) + 8 * X * (2 * l + 3) + 1 ≤ m := by norm_num)
    (hX : X ≤ 200 := by norm_num) (hk0 : 0 ≤ k := by norm_num) (hl0 : 0 ≤ l := by norm_num) (hk : k ≤ 10000 := by norm_num)
    (hl : l ≤ 10000 := by norm_num) (hkl : 4 * (X * l + k + 3) + 8 * X * (2 * l + 3) ≤ 1048576 := by norm_num) :
    CR u (a.div b) x m := by
  subst hu
  obtain ⟨n1, y, n2, n3⟩ := hb.sq ht hl0 hl
  have hX0 : 0 ≤ X := (abs_nonneg _).trans hx
  have hXl : 0 ≤ X * l := mul_nonneg hX0 hl0
  have hXl2 : 0 ≤ 8 * X * (2 * l + 3) := by positivity
  have hst : Sc 700 (s * t) := (hs.mul ht).mono (by norm_num)
  have htt : Sc 700 (t * t) := (ht.mul ht).mono (by norm_num)
  have h1 := Nr.mulA hs ht ha.1 hb.1 (X := X) (Y := 1) (m := X * l + k + 2) hx (by norm_num) rfl (mul_one x) (by linarith)
    (by linarith) hk0 hl0 (by linarith) (by linarith) (by linarith)
  have h2 := Nr.add hst h1 (Nr.zero (s := s * t) (ha.2.mul_zero_left hb.2)) (by rw [add_zero]; linarith) (by linarith)
  rw [add_zero, add_zero] at h2
  have hq : s * t / (t * t) = s / t := mul_div_mul_right _ _ ht.pos.ne'
  have hsd : Sc 700 (s * t / (t * t)) := by rw [hq]; exact (hs.div ht).mono (by norm_num)
  have h3 := Nr.div hst.pos htt.pos hsd h2 n1 hx (by norm_num) (by linarith) (by linarith) (by linarith) (by linarith)
  rw [div_one, hq] at h3
  refine ⟨h3.mono (hs.div ht).pos.le (by linarith), ?_⟩
  obtain ⟨v, hv⟩ := hb.1.is
  obtain ⟨w, hw⟩ := ha.1.is
  exact Is.zero_div ((ha.2.mul_zero_left hv).sub_zeros (hw.mul_zero_right hb.2)) n2 n3

theorem CR.sdiv2 {s x k : ℝ} {a : Cpx F} (hs : Sc 100 s) (ha : CR s a x k) (hx : |x| ≤ 200) (hk : k ≤ 10000) :
    Nr s (a.sdiv 2.0).re (x / 2) (4 * k + 1) := by
  have := Nr.div (s := s) (t := 1) hs.pos one_pos (by rw [div_one]; exact hs.mono (by norm_num)) ha.1 (Nr.exact (F := F) val_2) hx (by norm_num) (by norm_num)
    le_rfl (by norm_num) (by linarith)
  rw [div_one] at this
  exact this.mono hs.pos.le (by linarith)

/-! ## Complex quantities -/

/-- A complex quantity up to rounding. -/
def CN (s : ℝ) (a : Cpx F) (x y k : ℝ) : Prop := Nr s a.re x k ∧ Nr s a.im y k

theorem CN.mono {s x y k l : ℝ} {a : Cpx F} (h : CN s a x y k) (hs : 0 ≤ s) (hk : k ≤ l) : CN s a x y l := ⟨h.1.mono hs hk, h.2.mono hs hk⟩

theorem CN.smul {s t u x x' y z z' k l m X Y : ℝ} {a : Cpx F} {b : F} (hs : Sc 100 s) (ht : Sc 100 t) (ha : CN s a x x' k) (hb : Nr t b y l)
    (hx : |x| ≤ X) (hx' : |x'| ≤ X) (hy : |y| ≤ Y) (hu : s * t = u) (hz : x * y = z) (hz' : x' * y = z') (hm : X * l + Y * k + 2 ≤ m := by norm_num)
    (hXY : X * Y ≤ 512 := by norm_num) (hk0 : 0 ≤ k := by norm_num) (hl0 : 0 ≤ l := by norm_num) (hk : k ≤ 1048576 := by norm_num)
    (hl : l ≤ 1048576 := by norm_num) (hkl : X * l + Y * k ≤ 1048576 := by norm_num) : CN u (a.smul b) z z' m :=
  ⟨Nr.mulA hs ht ha.1 hb hx hy hu hz hm hXY hk0 hl0 hk hl hkl, Nr.mulA hs ht ha.2 hb hx' hy hu hz' hm hXY hk0 hl0 hk hl hkl⟩

theorem CN.add {s x y x' y' k l : ℝ} {a b : Cpx F} (hs : Sc 700 s) (ha : CN s a x x' k) (hb : CN s b y y' l) (hx : |x + y| ≤ 512)
    (hx' : |x' + y'| ≤ 512) (hk : k + l ≤ 1099511627776) : CN s (a.add b) (x + y) (x' + y') (k + l + 1) :=
  ⟨ha.1.add hs hb.1 hx hk, ha.2.add hs hb.2 hx' hk⟩

theorem CN.sub {s x y x' y' k l : ℝ} {a b : Cpx F} (hs : Sc 700 s) (ha : CN s a x x' k) (hb : CN s b y y' l) (hx : |x - y| ≤ 512)
    (hx' : |x' - y'| ≤ 512) (hk : k + l ≤ 1099511627776) : CN s (a.sub b) (x - y) (x' - y') (k + l + 1) :=
  ⟨ha.1.sub hs hb.1 hx hk, ha.2.sub hs hb.2 hx' hk⟩

/-- Product with a real quantity. -/
theorem CN.mulR {s x x' y k l m X Y : ℝ} {a b : Cpx F} (hs : Sc 100 s) (ha : CN s a x x' k) (hb : CR 1 b y l)
    (hx : |x| ≤ X) (hx' : |x'| ≤ X) (hy : |y| ≤ Y) (hm : X * l + Y * k + 3 ≤ m := by norm_num)
    (hXY : X * Y ≤ 512 := by norm_num) (hk0 : 0 ≤ k := by norm_num) (hl0 : 0 ≤ l := by norm_num) (hk : k ≤ 1048576 := by norm_num)
    (hl : l ≤ 1048576 := by norm_num) (hkl : X * l + Y * k ≤ 1048576 := by norm_num) : CN s (a.mul b) (x * y) (x' * y) m := by
  obtain ⟨v, hv⟩ := ha.1.is
  obtain ⟨v', hv'⟩ := ha.2.is
  have hY : 0 ≤ Y := (abs_nonneg _).trans hy
  have hX : 0 ≤ X := (abs_nonneg _).trans hx
  have p1 : |x * y| ≤ 512 := by rw [abs_mul]; exact (mul_le_mul hx hy (abs_nonneg _) hX).trans hXY
  have p2 : |x' * y| ≤ 512 := by rw [abs_mul]; exact (mul_le_mul hx' hy (abs_nonneg _) hX).trans hXY
  have h1 := Nr.mulA hs (Sc.one.mono (by norm_num)) ha.1 hb.1 hx hy (mul_one s) rfl le_rfl hXY hk0 hl0 hk hl hkl
  have h2 := Nr.mulA hs (Sc.one.mono (by norm_num)) ha.2 hb.1 hx' hy (mul_one s) rfl le_rfl hXY hk0 hl0 hk hl hkl
  have r1 := Nr.sub (hs.mono (by norm_num)) h1 (Nr.zero (s := s) (hv'.mul_zero_right hb.2)) (by rw [sub_zero]; exact p1) (by linarith)
  have r2 := Nr.add (hs.mono (by norm_num)) (Nr.zero (s := s) (hv.mul_zero_right hb.2)) h2 (by rw [zero_add]; exact p2) (by linarith)
  rw [sub_zero] at r1
  rw [zero_add] at r2
  exact ⟨r1.mono hs.pos.le (by linarith), r2.mono hs.pos.le (by linarith)⟩

/-- Quotient by a real quantity near its scale. -/
theorem CN.divR {s t u x x' k l m X : ℝ} {a b : Cpx F} (hs : Sc 100 s) (ht : Sc 100 t) (ha : CN s a x x' k) (hb : CR t b 1 l)
    (hx : |x| ≤ X) (hx' : |x'| ≤ X) (hu : s / t = u) (hm : 4 * (X * l + k + 3) + 8 * X * (2 * l + 3) + 1 ≤ m := by norm_num)
    (hX : X ≤ 200 := by norm_num) (hk0 : 0 ≤ k := by norm_num) (hl0 : 0 ≤ l := by norm_num) (hk : k ≤ 10000 := by norm_num)
    (hl : l ≤ 10000 := by norm_num) (hkl : 4 * (X * l + k + 3) + 8 * X * (2 * l + 3) ≤ 1048576 := by norm_num) :
    CN u (a.div b) x x' m := by
  subst hu
  obtain ⟨n1, y, n2, n3⟩ := hb.sq ht hl0 hl
  have hX0 : 0 ≤ X := (abs_nonneg _).trans hx
  have hXl : 0 ≤ X * l := mul_nonneg hX0 hl0
  have hXl2 : 0 ≤ 8 * X * (2 * l + 3) := by positivity
  have hst : Sc 700 (s * t) := (hs.mul ht).mono (by norm_num)
  have htt : Sc 700 (t * t) := (ht.mul ht).mono (by norm_num)
  obtain ⟨v, hv⟩ := ha.1.is
  obtain ⟨v', hv'⟩ := ha.2.is
  have hq : s * t / (t * t) = s / t := mul_div_mul_right _ _ ht.pos.ne'
  have hsd : Sc 700 (s * t / (t * t)) := by rw [hq]; exact (hs.div ht).mono (by norm_num)
  have h1 := Nr.mulA hs ht ha.1 hb.1 (X := X) (Y := 1) (m := X * l + k + 2) hx (by norm_num) rfl (mul_one x) (by linarith)
    (by linarith) hk0 hl0 (by linarith) (by linarith) (by linarith)
  have h1' := Nr.mulA hs ht ha.2 hb.1 (X := X) (Y := 1) (m := X * l + k + 2) hx' (by norm_num) rfl (mul_one x') (by linarith)
    (by linarith) hk0 hl0 (by linarith) (by linarith) (by linarith)
  have h2 := Nr.add hst h1 (Nr.zero (s := s * t) (hv'.mul_zero_right hb.2)) (by rw [add_zero]; linarith) (by linarith)
  have h2' := Nr.sub hst h1' (Nr.zero (s := s * t) (hv.mul_zero_right hb.2)) (by rw [sub_zero]; linarith) (by linarith)
  rw [add_zero, add_zero] at h2
  rw [sub_zero, add_zero] at h2'
  have h3 := Nr.div hst.pos htt.pos hsd h2 n1 hx (by norm_num) (by linarith) (by linarith) (by linarith) (by linarith)
  have h3' := Nr.div hst.pos htt.pos hsd h2' n1 hx' (by norm_num) (by linarith) (by linarith) (by linarith) (by linarith)
  rw [div_one, hq] at h3 h3'
  exact ⟨h3.mono (hs.div ht).pos.le (by linarith), h3'.mono (hs.div ht).pos.le (by linarith)⟩

/-- A number over a real quantity near its scale. -/
theorem CR.rdiv {t x k l m X : ℝ} {a : F} {b : Cpx F} (ht : Sc 100 t) (ha : Is a x) (hb : CR t b 1 l)
    (hx : |x| ≤ X) (hm : 4 * (X * l + 2) + 8 * X * (2 * l + 3) + 1 ≤ m := by norm_num)
    (hX : X ≤ 200 := by norm_num) (hl0 : 0 ≤ l := by norm_num)
    (hl : l ≤ 10000 := by norm_num) (hkl : 4 * (X * l + 2) + 8 * X * (2 * l + 3) ≤ 1048576 := by norm_num) :
    CR (1 / t) (Cpx.rdiv a b) x m := by
  obtain ⟨n1, y, n2, n3⟩ := hb.sq ht hl0 hl
  have hX0 : 0 ≤ X := (abs_nonneg _).trans hx
  have hXl : 0 ≤ X * l := mul_nonneg hX0 hl0
  have hXl2 : 0 ≤ 8 * X * (2 * l + 3) := by positivity
  have hst : Sc 700 (1 * t) := (Sc.one.mul ht).mono (by norm_num)
  have htt : Sc 700 (t * t) := (ht.mul ht).mono (by norm_num)
  have h1 := Nr.mulA (Sc.one.mono (by norm_num)) ht (Nr.exact ha) hb.1 (X := X) (Y := 1) (m := X * l + 2) hx (by norm_num) rfl (mul_one x) (by linarith)
    (by linarith) le_rfl hl0 (by norm_num) (by linarith) (by linarith)
  have hq : 1 * t / (t * t) = 1 / t := mul_div_mul_right _ _ ht.pos.ne'
  have hsd : Sc 700 (1 * t / (t * t)) := by rw [hq]; exact ht.inv.mono (by norm_num)
  have h3 := Nr.div hst.pos htt.pos hsd h1 n1 hx (by norm_num) (by linarith) (by linarith) (by linarith) (by linarith)
  rw [div_one, hq] at h3
  exact ⟨h3.mono ht.inv.pos.le (by linarith), Is.zero_div (ha.neg.mul_zero_right hb.2) n2 n3⟩

theorem CR.toCN {s x k : ℝ} {a : Cpx F} (h : CR s a x k) (hs : 0 ≤ s) (hk : 0 ≤ k) : CN s a x 0 k := ⟨h.1, (Nr.zero h.2).mono hs hk⟩

variable [Libm F]

theorem Nr.expRel {x k : ℝ} {a : F} (h : Nr 1 a x k) (hx : |x| ≤ 400) (hk0 : 0 ≤ k) (hk : k ≤ 1048576) :
    Nr (Real.exp x) (Flt.exp a) 1 (2 * k + 2) := by
  obtain ⟨y, h1, h2⟩ := h.exp hx le_rfl hk0 hk
  refine ⟨y, h1, ?_⟩
  rw [one_mul, one_mul] at h2
  rw [mul_one, mul_div_assoc']
  exact h2

theorem cos_zero_near {a : F} (h : Is a 0) : Nr 1 (Flt.cos a) 1 1 := by
  have := (Nr.exact h).cos (by norm_num) (by norm_num)
  rw [Real.cos_zero, zero_add] at this
  exact this

theorem CR.exp {x k : ℝ} {a : Cpx F} (h : CR 1 a x k) (hx : |x| ≤ 10) (hk0 : 0 ≤ k) (hk : k ≤ 10000) : CR (Real.exp x) a.exp 1 (2 * k + 5) := by
  have hsc : Sc 100 (Real.exp x) := by
    have h1 := (abs_le.mp hx).1
    have h2 := (abs_le.mp hx).2
    have e1 : Real.exp 10 ≤ 2 ^ 20 := by
      have := Real.exp_one_lt_d9
      have e : Real.exp 10 = (Real.exp 1) ^ 10 := by rw [← Real.exp_nat_mul]; norm_num
      rw [e]
      calc (Real.exp 1) ^ 10 ≤ 4 ^ 10 := pow_le_pow_left₀ (Real.exp_pos _).le (by linarith) 10
        _ = 2 ^ 20 := by norm_num
    have u1 : Real.exp x ≤ 2 ^ 20 := (Real.exp_le_exp.mpr h2).trans e1
    have u2 : 1 / 2 ^ 20 ≤ Real.exp x := by
      rw [div_le_iff₀ (by positivity)]
      calc (1 : ℝ) = Real.exp x * Real.exp (-x) := by rw [← Real.exp_add]; simp
        _ ≤ Real.exp x * 2 ^ 20 := mul_le_mul_of_nonneg_left ((Real.exp_le_exp.mpr (by linarith)).trans e1) (Real.exp_pos x).le
    exact (show Sc 20 _ from ⟨u2, u1⟩).mono (by norm_num)
  have h1 := h.1.expRel (hx.trans (by norm_num)) hk0 (by linarith)
  obtain ⟨v, hv⟩ := h1.is
  refine ⟨?_, hv.mul_zero_right (Libm.sin_zero _ h.2)⟩
  exact Nr.mulA hsc (Sc.one.mono (by norm_num)) h1 (cos_zero_near h.2) (X := 1) (Y := 1) (by norm_num) (by norm_num) (mul_one _) (mul_one _) (by linarith)
    (by norm_num) (by linarith) (by norm_num) (by linarith) (by norm_num) (by linarith)

theorem CN.exp {x y k l : ℝ} {a : Cpx F} (h1 : Nr 1 a.re x k) (h2 : Nr 1 a.im y l) (hx0 : x ≤ 0) (hx : -400 ≤ x) (hy : |y| ≤ 1000)
    (hk0 : 0 ≤ k) (hk : k ≤ 10000) (hl0 : 0 ≤ l) (hl : l ≤ 10000) : CN 1 a.exp (Real.exp x * Real.cos y) (Real.exp x * Real.sin y) (2 * k + l + 5) := by
  have e := h1.exp (abs_le.mpr ⟨hx, by linarith⟩) (Real.exp_le_one_iff.mpr hx0) hk0 (by linarith)
  rw [one_mul] at e
  have eb : |Real.exp x| ≤ 1 := by rw [abs_of_pos (Real.exp_pos x)]; exact Real.exp_le_one_iff.mpr hx0
  have s1 : Sc 100 (1 : ℝ) := Sc.one.mono (by norm_num)
  exact ⟨Nr.mulA s1 s1 e (h2.cos hy (by linarith)) eb (Real.abs_cos_le_one y) (mul_one _) rfl (by linarith) (by norm_num) (by linarith) (by linarith)
      (by linarith) (by linarith) (by linarith),
    Nr.mulA s1 s1 e (h2.sin hy (by linarith)) eb (Real.abs_sin_le_one y) (mul_one _) rfl (by linarith) (by norm_num) (by linarith) (by linarith)
      (by linarith) (by linarith) (by linarith)⟩

theorem CR.cos {x k : ℝ} {a : Cpx F} (h : CR 1 a x k) (hx : |x| ≤ 1000) (hk0 : 0 ≤ k) (hk : k ≤ 10000) : CR 1 a.cos (Real.cos x) (k + 3) := by
  have s1 : Sc 100 (1 : ℝ) := Sc.one.mono (by norm_num)
  obtain ⟨v, hv⟩ := (h.1.sin hx (by linarith)).is
  exact ⟨Nr.mulA s1 s1 (h.1.cos hx (by linarith)) (Nr.exact (Libm.cosh_zero _ h.2)) (Real.abs_cos_le_one x) (Y := 1) (by norm_num) (mul_one _) (mul_one _)
    (by linarith) (by norm_num) (by linarith) le_rfl (by linarith) (by norm_num) (by linarith), hv.neg.mul_zero_right (Libm.sinh_zero _ h.2)⟩

theorem CR.sin {x k : ℝ} {a : Cpx F} (h : CR 1 a x k) (hx : |x| ≤ 1000) (hk0 : 0 ≤ k) (hk : k ≤ 10000) : CR 1 a.sin (Real.sin x) (k + 3) := by
  have s1 : Sc 100 (1 : ℝ) := Sc.one.mono (by norm_num)
  obtain ⟨v, hv⟩ := (h.1.cos hx (by linarith)).is
  exact ⟨Nr.mulA s1 s1 (h.1.sin hx (by linarith)) (Nr.exact (Libm.cosh_zero _ h.2)) (Real.abs_sin_le_one x) (Y := 1) (by norm_num) (mul_one _) (mul_one _)
    (by linarith) (by norm_num) (by linarith) le_rfl (by linarith) (by norm_num) (by linarith), hv.mul_zero_right (Libm.sinh_zero _ h.2)⟩

/-- A power with exponent one. -/
theorem CR.pow1 {s k : ℝ} {a : Cpx F} {e : F} (hs : Sc 100 s) (h : CR s a 1 k) (he : Is e 1) (hk0 : 0 ≤ k) (hk : k ≤ 10000) :
    CR s (a.powf e) 1 (k + 8) := by
  obtain ⟨y, hy, hye⟩ := h.1
  have hs0 := hs.pos
  rw [mul_one] at hye
  have hk40 : k / 2 ^ 40 ≤ 1 / 2 := by rw [div_le_div_iff₀ (by positivity) (by norm_num)]; norm_num; linarith
  have y1 : s / 2 ≤ y := by
    have := (abs_le.mp hye).1
    have := mul_le_mul_of_nonneg_left hk40 hs0.le
    linarith
  have y2 : y ≤ 2 * s := by
    have := (abs_le.mp hye).2
    have := mul_le_mul_of_nonneg_left hk40 hs0.le
    linarith
  have hy0 : 0 < y := by linarith
  have hsy : Sc 101 y := by
    constructor
    · have : (1 : ℝ) / 2 ^ 101 = 1 / 2 ^ 100 / 2 := by rw [pow_succ]; field_simp
      rw [this]; linarith [hs.1]
    · rw [pow_succ]; linarith [hs.2]
  have hny : ‖(⟨y, 0⟩ : ℂ)‖ = y := by
    have : (⟨y, 0⟩ : ℂ) = (y : ℂ) := rfl
    rw [this, Complex.norm_real, Real.norm_of_nonneg hy0.le]
  obtain ⟨n, hn, hne⟩ := norm_rel (a := a) (z := ⟨y, 0⟩) hy h.2 (by rw [hny]; exact hsy) (by norm_num)
  rw [hny] at hne
  have hη : (2 : ℝ) / 2 ^ 40 ≤ 1 / 2 := by norm_num
  have n1 : y / 2 ≤ n := by
    have := (abs_le.mp hne).1
    have := mul_le_mul_of_nonneg_left hη hy0.le
    linarith
  have n2 : n ≤ 2 * y := by
    have := (abs_le.mp hne).2
    have := mul_le_mul_of_nonneg_left hη hy0.le
    linarith
  have hn0 : 0 < n := by linarith
  have hsn : Sc 102 n := by
    constructor
    · have : (1 : ℝ) / 2 ^ 102 = 1 / 2 ^ 101 / 2 := by rw [pow_succ (n := 101)]; field_simp
      rw [this]; linarith [hsy.1]
    · rw [pow_succ]; linarith [hsy.2]
  have hsn5 := hsn.mono (n := 500) (by norm_num)
  obtain ⟨p, hp, hpe⟩ := Libm.powf_acc a.norm e n 1 hn he hn0 (by rw [Real.rpow_one]; exact hsn5.1) (by rw [Real.rpow_one]; exact hsn5.2)
  rw [Real.rpow_one] at hpe
  -- relative error of the power
  have hP : Nr s (Flt.powf a.norm e) 1 (k + 5) := by
    refine ⟨p, hp, ?_⟩
    rw [mul_one]
    have e1 : |p - s| ≤ |p - n| + |n - y| + |y - s| := by
      have h1 := abs_add_le (p - n) (n - y)
      have h2 := abs_add_le (p - n + (n - y)) (y - s)
      have e : p - n + (n - y) + (y - s) = p - s := by ring
      rw [e] at h2
      linarith
    -- n ≤ s + small
    have e2 : y ≤ s * (101 / 100) := by
      have := (abs_le.mp hye).2
      have hh : k / 2 ^ 40 ≤ 1 / 100 := by rw [div_le_div_iff₀ (by positivity) (by norm_num)]; norm_num; linarith
      have := mul_le_mul_of_nonneg_left hh hs0.le
      linarith
    have e3 : n ≤ s * (103 / 100) := by
      have := (abs_le.mp hne).2
      have hh : (2 : ℝ) / 2 ^ 40 ≤ 1 / 100 := by norm_num
      have := mul_le_mul_of_nonneg_left hh hy0.le
      linarith
    have e4 : n / 2 ^ 40 ≤ s * (103 / 100) / 2 ^ 40 := div_le_div_of_nonneg_right e3 (by positivity)
    have e5 : y * (2 / 2 ^ 40) ≤ s * (101 / 100) * (2 / 2 ^ 40) := mul_le_mul_of_nonneg_right e2 (by positivity)
    have e6 : s * (103 / 100) / 2 ^ 40 + s * (101 / 100) * (2 / 2 ^ 40) + s * (k / 2 ^ 40) ≤ s * ((k + 5) / 2 ^ 40) := by
      have : s * (103 / 100) / 2 ^ 40 + s * (101 / 100) * (2 / 2 ^ 40) + s * (k / 2 ^ 40) = s * ((103 / 100 + 202 / 100 + k) / 2 ^ 40) := by ring
      rw [this]
      exact mul_le_mul_of_nonneg_left (div_le_div_of_nonneg_right (by linarith) (by positivity)) hs0.le
    linarith
  have hang : Is (a.arg * e) 0 := Is.mul_zero_left (Libm.atan2_zero a.im a.re y h.2 hy hy0) he
  have hform : a.powf e = Cpx.fromPolar (Flt.powf a.norm e) (a.arg * e) := by
    unfold Cpx.powf
    rw [if_neg]
    rw [eq_val, he, val_0]
    simp [Val.eq]
  rw [hform]
  refine ⟨?_, Is.mul_zero_right (x := p) hp (Libm.sin_zero _ hang)⟩
  exact Nr.mulA hs (Sc.one.mono (by norm_num)) hP (cos_zero_near hang) (X := 1) (Y := 1) (by norm_num) (by norm_num) (mul_one _) (mul_one _) (by linarith)
    (by norm_num) (by linarith) (by norm_num) (by linarith) (by norm_num) (by linarith)

end Visqol
