import Verif.Lemmas.IeeeSpacing
import Verif.Lemmas.IeeePool

/-! # The wideband quality mapping in floating point -/

set_option linter.unusedSectionVars false

namespace Visqol
open Ieee

variable {F : Type} [Flt F] [Ieee F]

theorem clamp_fin {a : F} {x : ℝ} (h : Is a x) : Is (Flt.clamp a 1.0 5.0) (max 1 (min 5 x)) := by
  have h5 : val (5.0 : F) = .fin 5 := by
    have := val_litnat (F := F) (m := 50) (e := 1) (k := 5) (by norm_num) (by norm_num); exact_mod_cast this
  unfold Flt.clamp
  dsimp only
  rw [Is.lt h val_1]
  by_cases h1 : x < 1
  · rw [decide_eq_true h1, if_pos rfl, Is.lt h5 val_1, decide_eq_false (by norm_num), if_neg (by simp),
      min_eq_right (by linarith), max_eq_left h1.le]
    exact val_1
  · simp only [decide_eq_false h1, Bool.false_eq_true, if_false]
    rw [Is.lt h5 h]
    by_cases h2 : 5 < x
    · rw [decide_eq_true h2, if_pos rfl, min_eq_left h2.le, max_eq_right (by norm_num)]
      exact h5
    · rw [decide_eq_false h2, if_neg (by simp), min_eq_right (not_lt.mp h2), max_eq_right (not_lt.mp h1)]
      exact h

theorem limit_lip (x y : ℝ) : |max 1 (min 5 x) - max 1 (min 5 y)| ≤ |x - y| := by
  have h1 : |max 1 (min 5 x) - max 1 (min 5 y)| ≤ |min 5 x - min 5 y| := by
    have := abs_max_sub_max_le_max 1 (min 5 x) 1 (min 5 y)
    rwa [sub_self, abs_zero, max_eq_right (abs_nonneg (min 5 x - min 5 y))] at this
  have h2 : |min 5 x - min 5 y| ≤ |x - y| := by
    have := abs_min_sub_min_le_max 5 x 5 y
    rwa [sub_self, abs_zero, max_eq_right (abs_nonneg (x - y))] at this
  exact h1.trans h2

/-- The exponential fit of `vnsim`, limited to 1..5. -/
noncomputable def fitMos (s : Bool) (y : ℝ) : ℝ :=
  max 1 (min 5 ((11559455 / 10 ^ 7 + Real.exp (46851153 / 10 ^ 7 * (y - 7655232 / 10 ^ 7))) * (if s then 12031409 / 10 ^ 7 else 1)))

/-- Adding up one by one. -/
theorem iterSum_acc {l : List F} {xs : List ℝ} {B : ℝ} (hB1 : 1 ≤ B) (hB2 : B ≤ 2 ^ 20) (e : l.map val = xs.map .fin) (b : ∀ x ∈ xs, |x| ≤ B)
    {a : F} {s x : ℝ} {k : ℕ} (ha : Is a s) (hs : |s - x| ≤ k * (B / 2 ^ 45)) (hx : |x| ≤ k * B) (hk : k + l.length ≤ 32) :
    ∃ y, Is (l.foldl (· + ·) a) y ∧ |y - (x + xs.sum)| ≤ (k + l.length : ℕ) * (B / 2 ^ 45) := by
  induction l generalizing xs a s x k with
  | nil =>
    cases xs with
    | nil => exact ⟨s, ha, by simpa using hs⟩
    | cons => simp at e
  | cons c l ih =>
    cases xs with
    | nil => simp at e
    | cons y xs =>
      rw [List.map_cons, List.map_cons, List.cons.injEq] at e
      rw [List.length_cons] at hk
      have hy := b y List.mem_cons_self
      have hxy := abs_add_le x y
      have hk32 : (k : ℝ) ≤ 32 := by exact_mod_cast (by omega : k ≤ 32)
      have hk0 : (0 : ℝ) ≤ k := Nat.cast_nonneg _
      have hkB : (k : ℝ) * B ≤ 32 * B := mul_le_mul_of_nonneg_right hk32 (by linarith)
      have hkU : (k : ℝ) * (B / 2 ^ 45) ≤ 32 * (B / 2 ^ 45) := mul_le_mul_of_nonneg_right hk32 (by positivity)
      have hsy : |s + y| ≤ 34 * B := by
        have h1 := abs_add_le (s - x) (x + y)
        rw [show s - x + (x + y) = s + y by ring] at h1
        norm_num at *; linarith
      obtain ⟨t, ht, hte⟩ := rnd_err F hsy (by linarith) (le_trans (by norm_num at hB2 ⊢; linarith) (two_pow_mono (m := 26) (by norm_num)))
      have h1 : |t - (x + y)| ≤ ((k + 1 : ℕ) : ℝ) * (B / 2 ^ 45) := by
        have h2 := abs_add_le (t - (s + y)) (s - x)
        rw [show t - (s + y) + (s - x) = t - (x + y) by ring] at h2
        push_cast
        norm_num at *; linarith
      obtain ⟨z, hz, hze⟩ := ih e.2 (fun z hz => b z (List.mem_cons_of_mem _ hz)) ((Is.add ha e.1).trans ht : Is (a + c) t) h1 (by push_cast; linarith)
        (by omega)
      refine ⟨z, hz, ?_⟩
      rw [List.sum_cons, List.length_cons, ← add_assoc, add_comm l.length 1, ← add_assoc]
      exact hze

theorem vals_list {l : List F} {B : ℝ} (h : ∀ a ∈ l, ∃ x, val a = .fin x ∧ |x| ≤ B) :
    ∃ xs : List ℝ, l.map val = xs.map .fin ∧ ∀ x ∈ xs, |x| ≤ B := by
  induction l with
  | nil => exact ⟨[], rfl, by simp⟩
  | cons a l ih =>
    obtain ⟨xs, e, b⟩ := ih fun a ha => h a (List.mem_cons_of_mem _ ha)
    obtain ⟨x, hx, hb⟩ := h a List.mem_cons_self
    exact ⟨x :: xs, by rw [List.map_cons, List.map_cons, e, hx], fun y hy => by
      rcases List.mem_cons.mp hy with rfl | hy
      · exact hb
      · exact b y hy⟩

theorem abs_sum_le {xs : List ℝ} {B : ℝ} (b : ∀ x ∈ xs, |x| ≤ B) : |xs.sum| ≤ xs.length * B := by
  induction xs with
  | nil => simp
  | cons a l ih =>
    rw [List.sum_cons, List.length_cons]
    push_cast
    have := ih (fun x hx => b x (List.mem_cons_of_mem _ hx))
    have := b a List.mem_cons_self
    exact (abs_add_le _ _).trans (by linarith)

/-- The mean of up to 32 numbers, as computed for `vnsim` and as computed by the mapper. -/
theorem mean_two_ways [Libm F] {v : List F} (hv : ∀ a ∈ v, ∃ x, val a = .fin x ∧ |x| ≤ 2 ^ 18) (h0 : 0 < v.length) (h1 : v.length ≤ 32) :
    ∃ y z, Is (Flt.sum v / Flt.ofNat v.length) y ∧ Is (Flt.iterSum v / Flt.ofNat v.length : F) z ∧ |y - z| ≤ 1 / 2 ^ 25 ∧ |z| ≤ 2 ^ 19 := by
  obtain ⟨xs, e, b⟩ := vals_list hv
  have hl : v.length = xs.length := by simpa using congrArg List.length e
  have hE := abs_sum_le b
  have hc1 : (1 : ℝ) ≤ v.length := by exact_mod_cast h0
  have hc2 : (v.length : ℝ) ≤ 32 := by exact_mod_cast h1
  have hn := val_nat (F := F) (n := v.length) (by omega)
  obtain ⟨t, ht, hte⟩ := Libm.sum_acc v xs (2 ^ 18) e (by norm_num) (two_pow_mono (by norm_num)) b (by omega)
  obtain ⟨u, hu, hue⟩ := iterSum_acc (B := 2 ^ 18) (by norm_num) (by norm_num) e b (val_0 (F := F)) (x := 0) (k := 0) (by simp) (by simp) (by omega)
  rw [zero_add, zero_add] at hue
  have hu' : Is (Flt.iterSum v) u := hu
  rw [← hl] at hE
  generalize hnn : (v.length : ℝ) = n at *
  generalize hS : xs.sum = S at *
  have hnp : 0 < n := by linarith
  have hm : |S / n| ≤ 2 ^ 18 := by
    rw [abs_div, abs_of_pos hnp, div_le_iff₀ hnp]; linarith
  have hd1 : |t / n - S / n| ≤ 32 * 2 ^ 18 / 2 ^ 50 := by
    rw [← sub_div, abs_div, abs_of_pos hnp, div_le_iff₀ hnp]
    refine hte.trans ?_
    rw [div_le_iff₀ (by norm_num), div_mul_eq_mul_div, div_mul_cancel₀ _ (by norm_num)]
    nlinarith
  have hd2 : |u / n - S / n| ≤ 2 ^ 18 / 2 ^ 45 := by
    rw [← sub_div, abs_div, abs_of_pos hnp, div_le_iff₀ hnp]
    linarith
  obtain ⟨m1, m2⟩ := abs_le.mp hm
  obtain ⟨p1, p2⟩ := abs_le.mp hd1
  obtain ⟨q1, q2⟩ := abs_le.mp hd2
  have hB1 : |t / n| ≤ 2 ^ 18 + 1 := by rw [abs_le]; constructor <;> norm_num at * <;> linarith
  have hB2 : |u / n| ≤ 2 ^ 18 + 1 := by rw [abs_le]; constructor <;> norm_num at * <;> linarith
  have hbig : (2 : ℝ) ^ 18 + 1 ≤ 2 ^ 1000 := le_trans (by norm_num) (two_pow_mono (m := 19) (by norm_num))
  obtain ⟨y, hy, hye⟩ := rnd_err F hB1 (by norm_num) hbig
  obtain ⟨z, hz, hze⟩ := rnd_err F hB2 (by norm_num) hbig
  clear hbig
  obtain ⟨a1, a2⟩ := abs_le.mp hye
  obtain ⟨b1, b2⟩ := abs_le.mp hze
  refine ⟨y, z, (Is.div (show Is _ t from ht) hn hnp.ne').trans hy, (Is.div hu' hn hnp.ne').trans hz, ?_, ?_⟩
  · rw [abs_le]; constructor <;> norm_num at * <;> linarith
  · rw [abs_le]; constructor <;> norm_num at * <;> linarith

/-- The fit does not amplify small differences by more than 47. -/
theorem fitMos_lip (s : Bool) {y z : ℝ} (h : |y - z| ≤ 1 / 10) : |fitMos s y - fitMos s z| ≤ 47 * |y - z| := by
  have key : ∀ y z : ℝ, y ≤ z → z - y ≤ 1 / 10 → fitMos s z - fitMos s y ≤ 47 * (z - y) ∧ 0 ≤ fitMos s z - fitMos s y := by
    intro y z hyz hd
    unfold fitMos
    have hsc : (1 : ℝ) ≤ (if s then 12031409 / 10 ^ 7 else 1) := by split <;> norm_num
    generalize (if s then (12031409 : ℝ) / 10 ^ 7 else 1) = c at *
    have e : Real.exp (46851153 / 10 ^ 7 * (z - 7655232 / 10 ^ 7)) = Real.exp (46851153 / 10 ^ 7 * (y - 7655232 / 10 ^ 7)) *
        Real.exp (46851153 / 10 ^ 7 * (z - y)) := by rw [← Real.exp_add]; congr 1; ring
    rw [e]
    have hE := Real.exp_pos (46851153 / 10 ^ 7 * (y - 7655232 / 10 ^ 7))
    generalize Real.exp (46851153 / 10 ^ 7 * (y - 7655232 / 10 ^ 7)) = E at *
    have hu0 : (0 : ℝ) ≤ 46851153 / 10 ^ 7 * (z - y) := mul_nonneg (by norm_num) (by linarith)
    have hu1 : |46851153 / 10 ^ 7 * (z - y)| ≤ 1 := by rw [abs_of_nonneg hu0]; norm_num; linarith
    have g1 := (abs_le.mp (Real.abs_exp_sub_one_le hu1)).2
    rw [abs_of_nonneg hu0] at g1
    have g0 := Real.add_one_le_exp (46851153 / 10 ^ 7 * (z - y))
    have g2 : 2 * (46851153 / 10 ^ 7 * (z - y)) ≤ 94 / 10 * (z - y) := by
      have : 0 ≤ z - y := by linarith
      norm_num; linarith
    generalize Real.exp (46851153 / 10 ^ 7 * (z - y)) = G at *
    have hG : 1 ≤ G := by linarith
    have hEG : E ≤ E * G := le_mul_of_one_le_right hE.le hG
    have hmono : (11559455 / 10 ^ 7 + E) * c ≤ (11559455 / 10 ^ 7 + E * G) * c := mul_le_mul_of_nonneg_right (by linarith) (by linarith)
    refine ⟨?_, sub_nonneg.mpr (max_le_max le_rfl (min_le_min le_rfl hmono))⟩
    by_cases h5 : 5 ≤ (11559455 / 10 ^ 7 + E) * c
    · rw [min_eq_left h5, min_eq_left (h5.trans hmono), sub_self]
      exact mul_nonneg (by norm_num) (by linarith)
    · have hl := le_trans (le_abs_self _) (limit_lip ((11559455 / 10 ^ 7 + E * G) * c) ((11559455 / 10 ^ 7 + E) * c))
      rw [abs_of_nonneg (by linarith)] at hl
      refine hl.trans ?_
      have hEc : E * c ≤ 5 := by
        have : 0 ≤ 11559455 / 10 ^ 7 * c := mul_nonneg (by norm_num) (by linarith)
        have e5 : (11559455 / 10 ^ 7 + E) * c = 11559455 / 10 ^ 7 * c + E * c := by ring
        linarith
      have e6 : (11559455 / 10 ^ 7 + E * G) * c - (11559455 / 10 ^ 7 + E) * c = E * c * (G - 1) := by ring
      rw [e6]
      have k1 : E * c * (G - 1) ≤ 5 * (G - 1) := mul_le_mul_of_nonneg_right hEc (by linarith)
      linarith
  rcases le_total y z with hyz | hyz
  · have := key y z hyz (by rw [abs_sub_comm] at h; exact (le_abs_self _).trans h)
    rw [abs_sub_comm, abs_of_nonneg this.2, abs_sub_comm, abs_of_nonneg (by linarith)]
    exact this.1
  · have := key z y hyz ((le_abs_self _).trans h)
    rw [abs_of_nonneg this.2, abs_of_nonneg (by linarith)]
    exact this.1

/-- The wideband prediction from an ordinary mean is within a millionth of the exponential fit. -/
theorem fit_ordinary [Libm F] (s : Bool) {a : F} {y : ℝ} (ha : Is a y) (hyb : |y| ≤ 2 + 1 / 1000) :
    ∃ z, Is (Flt.clamp (exponentialFromFit a 1.1559455 4.6851153 0.7655232 * (if s then 1.2031409 else 1.0)) 1.0 5.0) z ∧
      |z - fitMos s y| ≤ 1 / 1000000 := by
  have hm := Nr.exact ha
  obtain ⟨y1, y2⟩ := abs_le.mp hyb
  have lc := (lit_Nr (F := F) (m := 7655232) (e := 7) (x := 7655232 / 10 ^ 7) (by norm_num) (by norm_num) (by norm_num)).to_one
    (y := 7655232 / 10 ^ 7) (by norm_num) (by norm_num) (by norm_num)
  have lb := lit_Nr (F := F) (m := 46851153) (e := 7) (x := 46851153 / 10 ^ 7) (by norm_num) (by norm_num) (by norm_num)
  have la0 := lit_Nr (F := F) (m := 11559455) (e := 7) (x := 11559455 / 10 ^ 7) (by norm_num) (by norm_num) (by norm_num)
  have ls0 := lit_Nr (F := F) (m := 12031409) (e := 7) (x := 12031409 / 10 ^ 7) (by norm_num) (by norm_num) (by norm_num)
  have la := Nr.rescale (t := 1) (c := 2) one_pos (by norm_num) la0 (by norm_num)
  have ls := Nr.rescale (t := 1) (c := 2) one_pos (by norm_num) ls0 (by norm_num)
  rw [mul_one, div_one, mul_one] at la ls
  have d1 := Nr.sub (Sc.one.mono (by norm_num)) hm lc (by rw [abs_le]; constructor <;> norm_num at * <;> linarith) (by norm_num)
  have d2 := Nr.mul (X := 1) (Y := 3) (by norm_num) one_pos ⟨by
      refine le_trans (div_le_div_of_nonneg_left (by norm_num) (by positivity) (two_pow_mono (by norm_num : 0 ≤ 700))) ?_
      norm_num, by
      refine le_trans ?_ (two_pow_mono (by norm_num : 3 ≤ 700))
      norm_num⟩ lb d1 (by norm_num) (by rw [abs_le]; constructor <;> norm_num at * <;> linarith) (by norm_num) (by norm_num) (by norm_num) (by norm_num)
      (by norm_num) (by norm_num)
  have d3 := Nr.rescale (t := 1) (c := 5) one_pos (by norm_num) d2 (by norm_num)
  rw [div_one, mul_one, one_mul] at d3
  have hexp : Real.exp (46851153 / 10 ^ 7 * (y - 7655232 / 10 ^ 7)) ≤ 404 := by
    have e1 : Real.exp (46851153 / 10 ^ 7 * (y - 7655232 / 10 ^ 7)) ≤ Real.exp 6 := Real.exp_le_exp.mpr (by norm_num at *; linarith)
    have e2 : Real.exp 6 = Real.exp 1 ^ 6 := by rw [← Real.exp_nat_mul]; norm_num
    have e3 := Real.exp_one_lt_d9
    have e4 : Real.exp 1 ^ 6 ≤ 404 := by
      have := pow_le_pow_left₀ (Real.exp_pos 1).le (show Real.exp 1 ≤ 27183 / 10000 by norm_num at e3 ⊢; linarith) 6
      refine this.trans ?_
      norm_num
    linarith
  have hexp0 := Real.exp_pos (46851153 / 10 ^ 7 * (y - 7655232 / 10 ^ 7))
  have d4 := d3.exp (B := 404) (by rw [abs_le]; constructor <;> norm_num at * <;> linarith) hexp (by norm_num) (by norm_num)
  generalize hE : Real.exp (46851153 / 10 ^ 7 * (y - 7655232 / 10 ^ 7)) = E at *
  have d5 := Nr.add (Sc.one.mono (by norm_num)) la d4 (by rw [abs_of_pos (by positivity)]; norm_num; linarith) (by norm_num)
  have hf : 11559455 / 10 ^ 7 + E ≤ 406 := by norm_num; linarith
  have hsc : ∃ z, Is ((exponentialFromFit a 1.1559455 4.6851153 0.7655232 : F) *
      (if s then 1.2031409 else 1.0)) z ∧
      |z - (11559455 / 10 ^ 7 + E) * (if s then 12031409 / 10 ^ 7 else 1)| ≤ 1 / 1000000 := by
    cases s
    · simp only [Bool.false_eq_true, if_false]
      obtain ⟨z, hz, hze⟩ := Nr.mul (X := 406) (Y := 1) one_pos one_pos (by rw [one_mul]; exact Sc.one.mono (by norm_num)) d5 (Nr.exact (val_1 (F := F)))
        (by rw [abs_of_pos (by positivity)]; exact hf) (by norm_num) (by norm_num) (by norm_num) (by norm_num) (by norm_num) (by norm_num) (by norm_num)
      rw [one_mul, one_mul, one_mul, mul_one] at hze
      refine ⟨z, hz, ?_⟩
      rw [mul_one]
      exact hze.trans (by norm_num)
    · simp only [if_true]
      obtain ⟨z, hz, hze⟩ := Nr.mul (X := 406) (Y := 1) one_pos (by norm_num) ⟨by
        refine le_trans (div_le_div_of_nonneg_left (by norm_num) (by positivity) (two_pow_mono (by norm_num : 0 ≤ 700))) ?_
        norm_num, by
        refine le_trans ?_ (two_pow_mono (by norm_num : 1 ≤ 700))
        norm_num⟩ d5 ls0
        (by rw [abs_of_pos (by positivity)]; exact hf) (by norm_num) (by norm_num) (by norm_num) (by norm_num) (by norm_num) (by norm_num) (by norm_num)
      rw [one_mul, mul_one] at hze
      refine ⟨z, hz, ?_⟩
      rw [mul_comm (11559455 / 10 ^ 7 + E)]
      exact hze.trans (by norm_num)
  obtain ⟨z, hz, hze⟩ := hsc
  refine ⟨max 1 (min 5 z), clamp_fin hz, ?_⟩
  unfold fitMos
  rw [hE]
  exact (limit_lip _ _).trans hze

/-- A value that is at least 5, or overflowed. -/
def Beyond (a : F) : Prop := val a = .inf false ∨ ∃ y, val a = .fin y ∧ 5 ≤ y

theorem Beyond.clamp {a : F} (h : Beyond a) : Is (Flt.clamp a 1.0 5.0) 5 := by
  rcases h with h | ⟨y, hy, h5⟩
  · unfold Flt.clamp
    have e5 : val (5.0 : F) = .fin 5 := by
      have := val_litnat (F := F) (m := 50) (e := 1) (k := 5) (by norm_num) (by norm_num); exact_mod_cast this
    have l1 : Flt.lt a 1.0 = false := by rw [lt_val, h, val_1]; rfl
    have l2 : Flt.lt 5.0 a = true := by rw [lt_val, h, e5]; rfl
    simp only [l1, l2, Bool.false_eq_true, if_false, if_true]
    exact e5
  · have := clamp_fin (show Is a y from hy)
    rwa [min_eq_left h5, max_eq_right (by norm_num)] at this

/-- The wideband prediction from a large mean is 5. -/
theorem fit_large [Libm F] (s : Bool) {a : F} {y : ℝ} (ha : Is a y) (h2 : 2 ≤ y) (hyb : y ≤ 2 ^ 19) :
    Is (Flt.clamp (exponentialFromFit a 1.1559455 4.6851153 0.7655232 * (if s then 1.2031409 else 1.0)) 1.0 5.0) 5 := by
  apply Beyond.clamp
  have v4 : val (4.0 : F) = .fin 4 := by
    have := val_litnat (F := F) (m := 40) (e := 1) (k := 4) (by norm_num) (by norm_num); exact_mod_cast this
  have v5 : val (5.0 : F) = .fin 5 := by
    have := val_litnat (F := F) (m := 50) (e := 1) (k := 5) (by norm_num) (by norm_num); exact_mod_cast this
  obtain ⟨c, hc, hce⟩ := lit_near (F := F) (m := 7655232) (e := 7) (x := 7655232 / 10 ^ 7) (by norm_num) (by norm_num) (by norm_num)
  obtain ⟨b, hb, hbe⟩ := lit_near (F := F) (m := 46851153) (e := 7) (x := 46851153 / 10 ^ 7) (by norm_num) (by norm_num) (by norm_num)
  obtain ⟨d, hd, hde⟩ := lit_near (F := F) (m := 11559455) (e := 7) (x := 11559455 / 10 ^ 7) (by norm_num) (by norm_num) (by norm_num)
  obtain ⟨c1, c2⟩ := abs_le.mp hce
  obtain ⟨b1, b2⟩ := abs_le.mp hbe
  obtain ⟨d1, d2⟩ := abs_le.mp hde
  have hsc : ∃ z, Is (if s then 1.2031409 else 1.0 : F) z ∧ 1 ≤ z := by
    cases s
    · exact ⟨1, val_1, le_rfl⟩
    · obtain ⟨z, hz, hze⟩ := lit_near (F := F) (m := 12031409) (e := 7) (x := 12031409 / 10 ^ 7) (by norm_num) (by norm_num) (by norm_num)
      obtain ⟨z1, z2⟩ := abs_le.mp hze
      exact ⟨z, hz, by norm_num at *; linarith⟩
  obtain ⟨g, hg, hg1⟩ := hsc
  generalize (if s then 1.2031409 else 1.0 : F) = sc at *
  have hw : |y - c| ≤ 2 ^ 19 := by rw [abs_le]; constructor <;> norm_num at * <;> linarith
  obtain ⟨w, hw1, hw2⟩ := rnd_within_one F (hw.trans (by norm_num))
  have hwl : 1 ≤ w := rnd_lower (val_1 (F := F)) hw1 (by norm_num at *; linarith)
  have hwu := (abs_le.mp hw2).2
  have hbw0 : 4 ≤ b * w := by
    have : 4 * 1 ≤ b * w := mul_le_mul (by norm_num at *; linarith) hwl (by norm_num) (by norm_num at *; linarith)
    linarith
  have hbw : |b * w| ≤ 2 ^ 23 := by
    rw [abs_of_nonneg (by linarith)]
    have : b * w ≤ 5 * (2 ^ 19 + 1) := mul_le_mul (by norm_num at *; linarith) (by norm_num at *; linarith) (by linarith) (by norm_num)
    exact this.trans (by norm_num)
  obtain ⟨t, ht1, ht2⟩ := rnd_double F hbw (by norm_num) (two_pow_mono (by norm_num))
  have ht4 : 4 ≤ t := rnd_lower v4 ht1 hbw0
  have IT : Is (4.6851153 * (a - 0.7655232) : F) t := (Is.mul hb ((Is.sub ha hc).trans hw1)).trans ht1
  have hexp : val (Flt.exp (4.6851153 * (a - 0.7655232)) : F) = .inf false ∨ ∃ u, val (Flt.exp (4.6851153 * (a - 0.7655232)) : F) = .fin u ∧ 6 ≤ u := by
    rcases le_total 500 t with h | h
    · rcases Libm.exp_large _ t IT h with k | ⟨u, k, hu⟩
      · exact .inl k
      · exact .inr ⟨u, k, by linarith⟩
    · obtain ⟨u, hu, hue⟩ := Libm.exp_acc _ t IT (by rw [abs_of_nonneg (by linarith)]; exact h)
      refine .inr ⟨u, hu, ?_⟩
      have q1 := Real.quadratic_le_exp_of_nonneg (show 0 ≤ t by linarith)
      have q2 : 13 ≤ Real.exp t := by nlinarith
      have q3 := (abs_le.mp hue).1
      clear hu hue q1
      generalize Real.exp t = E at *
      norm_num at *; linarith
  have hsum : val (1.1559455 + Flt.exp (4.6851153 * (a - 0.7655232)) : F) = .inf false ∨
      ∃ u, val (1.1559455 + Flt.exp (4.6851153 * (a - 0.7655232)) : F) = .fin u ∧ 5 ≤ u := by
    rcases hexp with k | ⟨u, k, hu⟩
    · left; rw [val_add, hd, k]; rfl
    · have e := Is.add hd (show Is _ u from k)
      rcases rnd_ge (F := F) (5.0 : F) 5 (d + u) v5 (by norm_num at *; linarith) with r | ⟨z, r, hz⟩
      · exact .inl (e.trans r)
      · exact .inr ⟨z, e.trans r, hz⟩
  show Beyond (_ * sc)
  unfold exponentialFromFit
  rcases hsum with k | ⟨u, k, hu⟩
  · left
    rw [val_mul, k, hg]
    have : g ≠ 0 := by linarith
    simp [Val.mul, this, not_lt.mpr (by linarith : (0 : ℝ) ≤ g)]
  · have e := Is.mul (show Is _ u from k) hg
    rcases rnd_ge (F := F) (5.0 : F) 5 (u * g) v5 (by nlinarith) with r | ⟨z, r, hz⟩
    · exact .inl (e.trans r)
    · exact .inr ⟨z, e.trans r, hz⟩

/-- The fit of a large mean is 5. -/
theorem fitMos_large (s : Bool) {y : ℝ} (h : 2 ≤ y) : fitMos s y = 5 := by
  unfold fitMos
  have q1 := Real.quadratic_le_exp_of_nonneg (show 0 ≤ 46851153 / 10 ^ 7 * (y - 7655232 / 10 ^ 7) by
    refine mul_nonneg (by norm_num) (by norm_num; linarith))
  have q2 : 5 ≤ 46851153 / 10 ^ 7 * (y - 7655232 / 10 ^ 7) := by norm_num; linarith
  have q3 : 6 ≤ Real.exp (46851153 / 10 ^ 7 * (y - 7655232 / 10 ^ 7)) := by nlinarith
  generalize Real.exp (46851153 / 10 ^ 7 * (y - 7655232 / 10 ^ 7)) = E at *
  have hsc : (1 : ℝ) ≤ (if s then 12031409 / 10 ^ 7 else 1) := by split <;> norm_num
  rw [min_eq_left, max_eq_right (by norm_num)]
  have : (6 : ℝ) * 1 ≤ (11559455 / 10 ^ 7 + E) * (if s then 12031409 / 10 ^ 7 else 1) :=
    mul_le_mul (by norm_num; linarith) hsc (by norm_num) (by positivity)
  linarith

/-- The wideband MOS prediction is within three millionths of the exponential fit of the mean reported as `vnsim`, when that is not negative. -/
theorem quality_near [Libm F] (s : Bool) {v : List F} (hv : ∀ a ∈ v, ∃ x, val a = .fin x ∧ |x| ≤ 2 ^ 18) (h0 : 0 < v.length) (h1 : v.length ≤ 32) :
    ∃ y, Is (Flt.sum v / Flt.ofNat v.length) y ∧ (0 ≤ y → ∃ z, Is (speechQuality s v) z ∧ |z - fitMos s y| ≤ 3 / 1000000) := by
  obtain ⟨y, w, hy, hw, hyw, hwb⟩ := mean_two_ways hv h0 h1
  refine ⟨y, hy, fun hy0 => ?_⟩
  have hlip := fitMos_lip s (y := w) (z := y) (by rw [abs_sub_comm]; exact hyw.trans (by norm_num))
  obtain ⟨k1, k2⟩ := abs_le.mp hyw
  rw [abs_sub_comm w y] at hlip
  have hl2 : |fitMos s w - fitMos s y| ≤ 2 / 1000000 := by
    refine hlip.trans ((mul_le_mul_of_nonneg_left hyw (by norm_num)).trans (by norm_num))
  by_cases h2 : w ≤ 2
  · obtain ⟨z, hz, hze⟩ := fit_ordinary s hw (by rw [abs_le]; constructor <;> norm_num at * <;> linarith)
    refine ⟨z, hz, ?_⟩
    have := abs_add_le (z - fitMos s w) (fitMos s w - fitMos s y)
    rw [sub_add_sub_cancel] at this
    linarith
  · refine ⟨5, fit_large s hw (by linarith) (le_of_abs_le hwb), ?_⟩
    rw [← fitMos_large s (y := w) (by linarith)]
    linarith

end Visqol
