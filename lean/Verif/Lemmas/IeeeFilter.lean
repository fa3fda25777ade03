import Verif.Lemmas.IeeeNsim
import Mathlib.Analysis.Complex.Norm

/-! # Filtering in floating point: the outputs of a stable section stay bounded over a window -/

set_option linter.unusedSectionVars false

namespace Visqol
open Ieee
variable {F : Type} [Flt F] [Ieee F]

/-- The rounding error of a number of size at most `B`. -/
theorem rnd_err (F : Type) [Flt F] [Ieee F] {x B : ℝ} (hx : |x| ≤ B) (h1 : 1 ≤ B) (h2 : B ≤ 2 ^ 1000) :
    ∃ y, rnd F x = .fin y ∧ |y - x| ≤ B / 2 ^ 51 := by
  obtain ⟨y, hy1, hy2⟩ := rnd_acc (F := F) x (hx.trans h2)
  refine ⟨y, hy1, hy2.trans ?_⟩
  have h3 : (1 : ℝ) / 2 ^ 1000 ≤ 1 / 2 ^ 52 := tiny_le_pow (by norm_num)
  have h4 : |x| / 2 ^ 52 ≤ B / 2 ^ 52 := by gcongr
  have h5 : (1 : ℝ) / 2 ^ 52 ≤ B / 2 ^ 52 := by gcongr
  have h6 : B / 2 ^ 51 = B / 2 ^ 52 + B / 2 ^ 52 := by ring
  rw [h6]
  clear h2
  generalize (1 : ℝ) / 2 ^ 1000 = T at *
  linarith

/-- The feedback part of a section has its poles inside the open unit disc (a conjugate pair). -/
def StableDen (d : Taps F) : Prop :=
  ∃ r1 r2 : ℝ, Is d.c1 r1 ∧ Is d.c2 r2 ∧ r1 ^ 2 ≤ 4 * r2 ∧ r2 < 1

/-- A pole. -/
noncomputable def pole (r1 r2 : ℝ) : ℂ := ⟨-r1 / 2, Real.sqrt (r2 - r1 ^ 2 / 4)⟩

theorem pole_facts {r1 r2 : ℝ} (h : r1 ^ 2 ≤ 4 * r2) (h1 : r2 ≤ 1) :
    ‖pole r1 r2‖ ≤ 1 ∧ pole r1 r2 + (starRingEnd ℂ) (pole r1 r2) = -(r1 : ℂ) ∧ pole r1 r2 * (starRingEnd ℂ) (pole r1 r2) = (r2 : ℂ) := by
  have hs : Real.sqrt (r2 - r1 ^ 2 / 4) * Real.sqrt (r2 - r1 ^ 2 / 4) = r2 - r1 ^ 2 / 4 := Real.mul_self_sqrt (by linarith)
  have hn : Complex.normSq (pole r1 r2) = r2 := by
    rw [Complex.normSq_apply]
    show -r1 / 2 * (-r1 / 2) + Real.sqrt _ * Real.sqrt _ = _
    rw [hs]; ring
  refine ⟨?_, ?_, ?_⟩
  · rw [Complex.norm_def, hn]
    exact Real.sqrt_le_one.mpr h1
  · apply Complex.ext
    · simp [pole]
    · simp [pole]
  · rw [Complex.mul_conj, hn]

/-- One step of a section: the state as a perturbation of the exact recursion. -/
theorem section_step {num den : Taps F} {x z0 z1 : F} {q0 q1 q2 r1 r2 a b0 b1 X Q : ℝ} (h0 : Is num.c0 q0) (h1 : Is num.c1 q1)
    (h2 : Is num.c2 q2) (hr1 : Is den.c1 r1) (hr2 : Is den.c2 r2) (hx : Is x a) (hz0 : Is z0 b0) (hz1 : Is z1 b1)
    (hX : 1 ≤ X) (hQX : X ≤ Q) (hQ : Q ≤ 2 ^ 40 * X) (hbig : Q ≤ 2 ^ 990) (hq0 : |q0 * a| ≤ X) (hq1 : |q1 * a| ≤ X) (hq2 : |q2 * a| ≤ X)
    (hR1 : |r1| ≤ 2) (hR2 : |r2| ≤ 1) (hb0 : |b0| ≤ Q) (hb1 : |b1| ≤ Q) :
    Bd (4 * Q) (num.c0 * x + z0) ∧
    (∃ e, |e| ≤ 4 * X ∧ Is (num.c1 * x + z1 - den.c1 * (num.c0 * x + z0)) (-r1 * b0 + b1 + e)) ∧
    ∃ e, |e| ≤ 3 * X ∧ Is (num.c2 * x - den.c2 * (num.c0 * x + z0)) (-r2 * b0 + e) := by
  have hp : (2 : ℝ) ^ 1000 = 2 ^ 990 * 1024 := by rw [show (1024 : ℝ) = 2 ^ 10 by norm_num, ← pow_add]
  have hp9 : (2 : ℝ) ^ 990 ≤ 2 ^ 1000 := two_pow_mono (by norm_num)
  have lim : ∀ c : ℝ, 0 ≤ c → c ≤ 1024 → c * Q ≤ 2 ^ 1000 := by
    intro c hc0 hc
    rw [hp]
    have : c * Q ≤ 1024 * 2 ^ 990 := mul_le_mul hc hbig (by linarith) (by norm_num)
    linarith
  have limX : X ≤ 2 ^ 1000 := hQX.trans (hbig.trans hp9)
  have l3 := lim 3 (by norm_num) (by norm_num)
  have l8 := lim 8 (by norm_num) (by norm_num)
  have l13 := lim 13 (by norm_num) (by norm_num)
  have l4 := lim 4 (by norm_num) (by norm_num)
  have l7 := lim 7 (by norm_num) (by norm_num)
  obtain ⟨m0, em0, dm0⟩ := rnd_err F hq0 hX limX
  obtain ⟨m1, em1, dm1⟩ := rnd_err F hq1 hX limX
  obtain ⟨m2, em2, dm2⟩ := rnd_err F hq2 hX limX
  clear limX hp hp9 lim hbig
  have M0 : Is (num.c0 * x) m0 := (h0.mul hx).trans em0
  have M1 : Is (num.c1 * x) m1 := (h1.mul hx).trans em1
  have M2 : Is (num.c2 * x) m2 := (h2.mul hx).trans em2
  have hXs : X / 2 ^ 51 ≤ X := div_le_self (by linarith) (by norm_num)
  have bm : ∀ {m q : ℝ}, |q * a| ≤ X → |m - q * a| ≤ X / 2 ^ 51 → |m| ≤ 2 * X := by
    intro m q hq hm
    have := abs_sub_abs_le_abs_sub m (q * a)
    linarith
  have bm0 := bm hq0 dm0
  have bm1 := bm hq1 dm1
  have bm2 := bm hq2 dm2
  have tri : ∀ {u v A B : ℝ}, |u| ≤ A → |v| ≤ B → |u + v| ≤ A + B := fun hu hv => (abs_add_le _ _).trans (add_le_add hu hv)
  have tris : ∀ {u v A B : ℝ}, |u| ≤ A → |v| ≤ B → |u - v| ≤ A + B := fun hu hv => (abs_sub _ _).trans (add_le_add hu hv)
  have near : ∀ {u v A B : ℝ}, |u - v| ≤ A → |v| ≤ B → |u| ≤ A + B := by
    intro u v A B h h'
    have := abs_sub_abs_le_abs_sub u v
    linarith
  have hQ1 : 1 ≤ Q := hX.trans hQX
  have hQs : ∀ c : ℝ, 0 ≤ c → c ≤ 2 ^ 10 → c * Q / 2 ^ 51 ≤ Q := by
    intro c h0 hc
    rw [div_le_iff₀ (by positivity), mul_comm Q]
    exact mul_le_mul_of_nonneg_right (hc.trans (by norm_num)) (by linarith)
  -- y
  have by' : |m0 + b0| ≤ 3 * Q := (tri bm0 hb0).trans (by linarith)
  obtain ⟨y, ey, dy⟩ := rnd_err F by' (by linarith) l3
  have Y : Is (num.c0 * x + z0) y := (M0.add hz0).trans ey
  have hy : |y| ≤ 4 * Q := (near dy by').trans (by linarith [hQs 3 (by norm_num) (by norm_num)])
  -- s
  have bs : |m1 + b1| ≤ 3 * Q := (tri bm1 hb1).trans (by linarith)
  obtain ⟨s, es, ds⟩ := rnd_err F bs (by linarith) l3
  have S : Is (num.c1 * x + z1) s := (M1.add hz1).trans es
  have hs : |s| ≤ 4 * Q := (near ds bs).trans (by linarith [hQs 3 (by norm_num) (by norm_num)])
  -- products with y
  have bq : |r1 * y| ≤ 8 * Q := by
    rw [abs_mul]
    exact (mul_le_mul hR1 hy (abs_nonneg _) (by norm_num)).trans (by linarith)
  obtain ⟨q, eq, dq⟩ := rnd_err F bq (by linarith) l8
  have Qq : Is (den.c1 * (num.c0 * x + z0)) q := (hr1.mul Y).trans eq
  have hq : |q| ≤ 9 * Q := (near dq bq).trans (by linarith [hQs 8 (by norm_num) (by norm_num)])
  have bt : |r2 * y| ≤ 4 * Q := by
    rw [abs_mul]
    exact (mul_le_mul hR2 hy (abs_nonneg _) (by norm_num)).trans (by linarith)
  obtain ⟨t, et, dt⟩ := rnd_err F bt (by linarith) l4
  have T : Is (den.c2 * (num.c0 * x + z0)) t := (hr2.mul Y).trans et
  have ht : |t| ≤ 5 * Q := (near dt bt).trans (by linarith [hQs 4 (by norm_num) (by norm_num)])
  -- new states
  have bu : |s - q| ≤ 13 * Q := (tris hs hq).trans (by linarith)
  obtain ⟨u, eu, du⟩ := rnd_err F bu (by linarith) l13
  have bv : |m2 - t| ≤ 7 * Q := (tris bm2 ht).trans (by linarith)
  obtain ⟨v, ev, dv⟩ := rnd_err F bv (by linarith) l7
  have hQu : Q / 2 ^ 51 ≤ X / 2 ^ 11 := by
    rw [div_le_div_iff₀ (by positivity) (by positivity)]
    have := mul_le_mul_of_nonneg_right hQ (show (0 : ℝ) ≤ 2 ^ 11 by positivity)
    calc Q * 2 ^ 11 ≤ 2 ^ 40 * X * 2 ^ 11 := this
      _ = X * 2 ^ 51 := by ring
  have r1a : |r1 * (q0 * a)| ≤ 2 * X := by
    rw [abs_mul]; exact mul_le_mul hR1 hq0 (abs_nonneg _) (by norm_num)
  have r2a : |r2 * (q0 * a)| ≤ X := by
    rw [abs_mul]; exact (mul_le_mul hR2 hq0 (abs_nonneg _) (by norm_num)).trans (by linarith)
  have dyy : |y - (q0 * a + b0)| ≤ X / 2 ^ 51 + 3 * Q / 2 ^ 51 := by
    have := tri dy dm0
    rw [show y - (m0 + b0) + (m0 - q0 * a) = y - (q0 * a + b0) by ring] at this
    linarith
  have r1y : |r1 * (y - (q0 * a + b0))| ≤ 2 * (X / 2 ^ 51 + 3 * Q / 2 ^ 51) := by
    rw [abs_mul]; exact mul_le_mul hR1 dyy (abs_nonneg _) (by norm_num)
  have r2y : |r2 * (y - (q0 * a + b0))| ≤ X / 2 ^ 51 + 3 * Q / 2 ^ 51 := by
    rw [abs_mul]; exact (mul_le_mul hR2 dyy (abs_nonneg _) (by norm_num)).trans (by linarith)
  have hXu : X / 2 ^ 51 ≤ X / 2 ^ 11 := by gcongr <;> norm_num
  clear l3 l8 l13 l4 l7 hQ
  simp only [mul_div_assoc] at *
  generalize Q / 2 ^ 51 = qe at *
  generalize X / 2 ^ 51 = xe at *
  have h11 : X / 2 ^ 11 = X / 2048 := by norm_num
  rw [h11] at hQu hXu
  refine ⟨⟨y, Y, hy⟩, ⟨u - (-r1 * b0 + b1), ?_, ?_⟩, v - (-r2 * b0), ?_, ?_⟩
  · have e : u - (-r1 * b0 + b1) = (u - (s - q)) + (s - (m1 + b1)) + (m1 - q1 * a) + q1 * a - (q - r1 * y)
        - r1 * (y - (q0 * a + b0)) - r1 * (q0 * a) := by ring
    rw [e]
    rw [abs_le] at *
    constructor <;> linarith [du.1, du.2, ds.1, ds.2, dm1.1, dm1.2, hq1.1, hq1.2, dq.1, dq.2, r1y.1, r1y.2, r1a.1, r1a.2]
  · rw [show -r1 * b0 + b1 + (u - (-r1 * b0 + b1)) = u by ring]
    exact (S.sub Qq).trans eu
  · have e : v - (-r2 * b0) = (v - (m2 - t)) + (m2 - q2 * a) + q2 * a - (t - r2 * y) - r2 * (y - (q0 * a + b0)) - r2 * (q0 * a) := by ring
    rw [e]
    rw [abs_le] at *
    constructor <;> linarith [dv.1, dv.2, dm2.1, dm2.2, hq2.1, hq2.2, dt.1, dt.2, r2y.1, r2y.2, r2a.1, r2a.2]
  · rw [show -r2 * b0 + (v - (-r2 * b0)) = v by ring]
    exact (M2.sub T).trans ev

/-- The state after `n` steps with inputs of weight at most `X`. -/
def SectionState (r1 r2 X : ℝ) (n : ℕ) (z : F × F) : Prop :=
  ∃ b0 b1 : ℝ, Is z.1 b0 ∧ Is z.2 b1 ∧ |b0| ≤ 4 * X * n ^ 2 ∧ ‖pole r1 r2 * b0 + b1‖ ≤ 8 * X * n

theorem SectionState.next {num den : Taps F} {x : F} {z : F × F} {q0 q1 q2 r1 r2 a X : ℝ} {n : ℕ} (h0 : Is num.c0 q0) (h1 : Is num.c1 q1)
    (h2 : Is num.c2 q2) (hr1 : Is den.c1 r1) (hr2 : Is den.c2 r2) (hx : Is x a) (hs : r1 ^ 2 ≤ 4 * r2) (hs1 : r2 ≤ 1)
    (hX : 1 ≤ X) (hbig : X ≤ 2 ^ 900) (hq0 : |q0 * a| ≤ X) (hq1 : |q1 * a| ≤ X) (hq2 : |q2 * a| ≤ X) (hn : n + 1 ≤ 2 ^ 17)
    (hz : SectionState r1 r2 X n z) :
    Bd (2 ^ 38 * X) (num.c0 * x + z.1) ∧ SectionState r1 r2 X (n + 1)
      (num.c1 * x + z.2 - den.c1 * (num.c0 * x + z.1), num.c2 * x - den.c2 * (num.c0 * x + z.1)) := by
  obtain ⟨b0, b1, hz0, hz1, hb0, hv⟩ := hz
  obtain ⟨p1, p2, p3⟩ := pole_facts hs hs1
  generalize hlam : pole r1 r2 = lam at *
  have hr2n : 0 ≤ r2 := by nlinarith [sq_nonneg r1]
  have hn0 : (0 : ℝ) ≤ n := n.cast_nonneg
  have hn1 : ((n + 1 : ℕ) : ℝ) ≤ 2 ^ 17 := by exact_mod_cast hn
  push_cast at hn1
  have hX0 : (0 : ℝ) ≤ X := by linarith
  -- the size of both state variables
  have hsq : (1 : ℝ) ≤ ((n : ℝ) + 1) ^ 2 := one_le_pow₀ (by linarith)
  have hsq2 : ((n : ℝ) + 1) ^ 2 ≤ 2 ^ 34 := by
    calc ((n : ℝ) + 1) ^ 2 ≤ (2 ^ 17) ^ 2 := pow_le_pow_left₀ (by linarith) hn1 2
      _ = 2 ^ 34 := by norm_num
  have e1 : 4 * X * ((n : ℝ) + 1) ^ 2 = 4 * X * n ^ 2 + 8 * X * n + 4 * X := by ring
  have hb1 : |b1| ≤ 4 * X * n ^ 2 + 8 * X * n := by
    have h1 : ‖(b1 : ℂ)‖ ≤ ‖lam * b0 + b1‖ + ‖lam * b0‖ := by
      have := norm_sub_le (lam * b0 + b1) (lam * (b0 : ℂ))
      simpa using this
    rw [norm_mul, Complex.norm_real, Complex.norm_real, Real.norm_eq_abs, Real.norm_eq_abs] at h1
    have h2 : ‖lam‖ * |b0| ≤ |b0| := mul_le_of_le_one_left (abs_nonneg _) p1
    linarith
  have hXn : 0 ≤ X * n := mul_nonneg hX0 hn0
  have hQb : |b0| ≤ 4 * X * ((n : ℝ) + 1) ^ 2 := by rw [e1]; linarith
  have hQb1 : |b1| ≤ 4 * X * ((n : ℝ) + 1) ^ 2 := by rw [e1]; linarith
  have hXQ : X ≤ 4 * X * ((n : ℝ) + 1) ^ 2 := by
    rw [e1]; have := mul_nonneg hX0 (sq_nonneg (n : ℝ)); linarith
  have hQ36 : 4 * X * ((n : ℝ) + 1) ^ 2 ≤ 2 ^ 36 * X := by
    have := mul_le_mul_of_nonneg_left hsq2 (show 0 ≤ 4 * X by linarith)
    calc _ ≤ 4 * X * 2 ^ 34 := this
      _ = 2 ^ 36 * X := by ring
  have hQbig : 4 * X * ((n : ℝ) + 1) ^ 2 ≤ 2 ^ 990 := by
    refine hQ36.trans ((mul_le_mul_of_nonneg_left hbig (by positivity)).trans ?_)
    rw [← pow_add]
    exact two_pow_mono (by norm_num)
  have hQ40 : 4 * X * ((n : ℝ) + 1) ^ 2 ≤ 2 ^ 40 * X := by
    refine hQ36.trans (mul_le_mul_of_nonneg_right (by norm_num) hX0)
  obtain ⟨c1, ⟨e0, he0, c2⟩, e, he, c3⟩ := section_step h0 h1 h2 hr1 hr2 hx hz0 hz1 hX hXQ hQ40 hQbig hq0 hq1 hq2
    (abs_le_of_sq_le_sq (by linarith) (by norm_num)) (by rw [abs_of_nonneg hr2n]; exact hs1) hQb hQb1
  clear hQbig hbig
  constructor
  · obtain ⟨y, y1, y2⟩ := c1
    refine ⟨y, y1, y2.trans ?_⟩
    calc 4 * (4 * X * ((n : ℝ) + 1) ^ 2) ≤ 4 * (2 ^ 36 * X) := by linarith
      _ = 2 ^ 38 * X := by ring
  · refine ⟨_, _, c2, c3, ?_, ?_⟩
    · have hc : (((-r1 * b0 + b1 + e0 : ℝ)) : ℂ) = (starRingEnd ℂ) lam * b0 + (lam * b0 + b1) + e0 := by
        push_cast; rw [← p2]; ring
      have h1 : |(-r1 * b0 + b1 + e0)| = ‖(((-r1 * b0 + b1 + e0 : ℝ)) : ℂ)‖ := by rw [Complex.norm_real, Real.norm_eq_abs]
      rw [h1, hc]
      refine (norm_add_le _ _).trans ((add_le_add_left (norm_add_le _ _) _).trans ?_)
      rw [norm_mul, Complex.norm_conj, Complex.norm_real, Complex.norm_real, Real.norm_eq_abs, Real.norm_eq_abs]
      have h2 : ‖lam‖ * |b0| ≤ |b0| := mul_le_of_le_one_left (abs_nonneg _) p1
      push_cast
      rw [e1]; linarith
    · have hc : lam * ((-r1 * b0 + b1 + e0 : ℝ) : ℂ) + ((-r2 * b0 + e : ℝ) : ℂ) = lam * (lam * b0 + b1) + (lam * e0 + e) := by
        push_cast; rw [← p2, ← p3]; ring
      rw [hlam, hc]
      refine (norm_add_le _ _).trans ((add_le_add_right (norm_add_le _ _) _).trans ?_)
      rw [norm_mul, norm_mul, Complex.norm_real, Complex.norm_real, Real.norm_eq_abs, Real.norm_eq_abs]
      have h2 : ‖lam‖ * ‖lam * b0 + b1‖ ≤ ‖lam * b0 + b1‖ := mul_le_of_le_one_left (norm_nonneg _) p1
      have h3 : ‖lam‖ * |e0| ≤ |e0| := mul_le_of_le_one_left (abs_nonneg _) p1
      push_cast
      have e2 : 8 * X * ((n : ℝ) + 1) = 8 * X * n + 8 * X := by ring
      rw [e2]; linarith

theorem filter_bound_aux {num den : Taps F} {q0 q1 q2 r1 r2 X : ℝ} (h0 : Is num.c0 q0) (h1 : Is num.c1 q1)
    (h2 : Is num.c2 q2) (hr1 : Is den.c1 r1) (hr2 : Is den.c2 r2) (hs : r1 ^ 2 ≤ 4 * r2) (hs1 : r2 ≤ 1)
    (hX : 1 ≤ X) (hbig : X ≤ 2 ^ 900) : ∀ (xs : List F) (z : F × F) (n : ℕ),
    (∀ x ∈ xs, ∃ a, Is x a ∧ |q0 * a| ≤ X ∧ |q1 * a| ≤ X ∧ |q2 * a| ≤ X) → n + xs.length ≤ 2 ^ 17 → SectionState r1 r2 X n z →
    ∀ y ∈ (filterSignal num den xs z).1, Bd (2 ^ 38 * X) y
  | [], _, _, _, _, _ => by simp [filterSignal]
  | x :: xs, z, n, hx, hn, hz => by
    rw [List.length_cons] at hn
    obtain ⟨a, ha, a0, a1, a2⟩ := hx x (by simp)
    obtain ⟨b1, b2⟩ := SectionState.next h0 h1 h2 hr1 hr2 ha hs hs1 hX hbig a0 a1 a2 (by omega) hz
    intro y hy
    simp only [filterSignal, List.mem_cons] at hy
    rcases hy with rfl | hy
    · exact b1
    · exact filter_bound_aux h0 h1 h2 hr1 hr2 hs hs1 hX hbig xs _ (n + 1) (fun x hx' => hx x (by simp [hx'])) (by omega) b2 y hy

/-- Outputs of a stable section started at rest, for inputs of size at most `2ᵐ` and coefficients of size at most `2ᶜ`. -/
theorem filter_bound {num den : Taps F} {c m : ℕ} (h0 : Pw c num.c0) (h1 : Pw c num.c1) (h2 : Pw c num.c2) (hd : StableDen den)
    {xs : List F} (hx : ∀ x ∈ xs, Pw m x) (hn : xs.length ≤ 2 ^ 17) (hcm : c + m ≤ 900) :
    ∀ y ∈ (filterSignal num den xs (0.0, 0.0)).1, Pw (c + m + 38) y := by
  obtain ⟨q0, h0, a0⟩ := h0
  obtain ⟨q1, h1, a1⟩ := h1
  obtain ⟨q2, h2, a2⟩ := h2
  obtain ⟨r1, r2, hr1, hr2, hs, hs1⟩ := hd
  have hmul : ∀ {q a : ℝ}, |q| ≤ 2 ^ c → |a| ≤ 2 ^ m → |q * a| ≤ 2 ^ (c + m) := by
    intro q a h h'
    rw [abs_mul, pow_add]
    exact mul_le_mul h h' (abs_nonneg _) (by positivity)
  intro y hy
  obtain ⟨v, v1, v2⟩ := filter_bound_aux h0 h1 h2 hr1 hr2 hs hs1.le (X := 2 ^ (c + m)) (one_le_pow₀ (by norm_num)) (two_pow_mono hcm) xs (0.0, 0.0) 0
    (fun x h => by
      obtain ⟨a, ha, hb⟩ := hx x h
      exact ⟨a, ha, hmul a0 hb, hmul a1 hb, hmul a2 hb⟩) (by omega) ⟨0, 0, val_0, val_0, by simp, by simp⟩ y hy
  refine ⟨v, v1, v2.trans (le_of_eq ?_)⟩
  rw [← pow_add]; congr 1; omega

end Visqol
