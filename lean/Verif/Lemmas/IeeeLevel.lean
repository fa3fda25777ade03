import Verif.Lemmas.IeeeScale
import Verif.Lemmas.DftNorm
import Verif.Num.Libm
import Verif.Spec.Filter
import Verif.Lemmas.IeeeSum

/-! # Floating point: accuracy of the level of a signal and of level matching -/

set_option linter.unusedSectionVars false

namespace Visqol
open Ieee

variable {F : Type} [Flt F] [Ieee F]

/-- Rounding of a number known up to a relative error of at most one half. -/
theorem rel_round_half {a : F} {t x e : ℝ} (h1 : 1 / 2 ^ 400 ≤ x) (h2 : x ≤ 2 ^ 400) (ha : val a = rnd F t) (ht : |t - x| ≤ e * x)
    (he : e ≤ 1 / 2) : Rel a x (e + 1 / 2 ^ 50) := by
  have hx0 : 0 < x := lt_of_lt_of_le (by positivity) h1
  have he1 : e * x ≤ x / 2 := by nlinarith
  have ht1 := (abs_le.mp ht).1
  have ht2 := (abs_le.mp ht).2
  have htl : x / 2 ≤ t := by linarith
  have htu : t ≤ 2 * x := by linarith
  obtain ⟨y, hy, hye⟩ := rnd_rel F (x := t) (.inr ⟨by
    refine le_trans ?_ htl
    refine le_trans ?_ (div_le_div_of_nonneg_right h1 (by norm_num : (0 : ℝ) ≤ 2))
    rw [div_div, ← pow_succ]
    exact div_le_div_of_nonneg_left (by norm_num) (by positivity) (two_pow_mono (by norm_num)), by
    refine htu.trans ((mul_le_mul_of_nonneg_left h2 (by norm_num)).trans ?_)
    rw [← pow_succ']
    exact two_pow_mono (by norm_num)⟩)
  refine ⟨hx0.le, y, ha.trans hy, ?_⟩
  have htx : 1 / 2 ^ 51 * t ≤ 1 / 2 ^ 50 * x := by
    have : (1 : ℝ) / 2 ^ 51 * t ≤ 1 / 2 ^ 51 * (2 * x) := by gcongr
    calc _ ≤ _ := this
      _ = _ := by ring
  calc |y - x| = |(y - t) + (t - x)| := by ring_nf
    _ ≤ |y - t| + |t - x| := abs_add_le _ _
    _ ≤ 1 / 2 ^ 50 * x + e * x := add_le_add (hye.trans htx) ht
    _ = (e + 1 / 2 ^ 50) * x := by ring

/-- One step of the summation of non-negative numbers. -/
theorem rel_sum_step {x X v : ℝ} {k : ℕ} (hk : k ≤ 2 ^ 31) (hX : 0 ≤ X) (hXu : X ≤ 2 ^ 40) (hv0 : 0 ≤ v) (hvu : v ≤ 2 ^ 40)
    (h : |x - X| ≤ X * k / 2 ^ 51 + 2 * k * (1 / 2 ^ 1000)) :
    ∃ y, rnd F (x + v) = .fin y ∧ |y - (X + v)| ≤ (X + v) * (k + 1 : ℕ) / 2 ^ 51 + 2 * (k + 1 : ℕ) * (1 / 2 ^ 1000) := by
  have htl : (1 : ℝ) / 2 ^ 1000 ≤ 1 := tiny_le_one
  have ht0 : (0 : ℝ) ≤ 1 / 2 ^ 1000 := by positivity
  have hbig : (2 : ℝ) ^ 45 ≤ 2 ^ 1000 := two_pow_mono (by norm_num)
  have hr := rnd_acc (F := F) (x + v)
  generalize (1 : ℝ) / 2 ^ 1000 = t at *
  generalize (2 : ℝ) ^ 1000 = B at *
  have hk0 : (0 : ℝ) ≤ k := Nat.cast_nonneg _
  have hk' : (k : ℝ) ≤ 2147483648 := by exact_mod_cast (by simpa using hk)
  push_cast
  generalize (k : ℝ) = c at *
  have h1 := (abs_le.mp h).1
  have h2 := (abs_le.mp h).2
  norm_num at hXu hvu h1 h2 hbig ⊢
  have hXc : X * c ≤ X * 2147483648 := mul_le_mul_of_nonneg_left hk' hX
  have hct : c * t ≤ 2147483648 * t := mul_le_mul_of_nonneg_right hk' ht0
  have hXc0 : 0 ≤ X * c := mul_nonneg hX hk0
  have hct0 : 0 ≤ c * t := mul_nonneg hk0 ht0
  have hvc0 : 0 ≤ v * c := mul_nonneg hv0 hk0
  have hxv : |x + v| ≤ X + v + (X * c / 2251799813685248 + 2 * (c * t)) := by
    rw [abs_le]; constructor <;> linarith
  obtain ⟨y, hy, he⟩ := hr (hxv.trans (by linarith))
  refine ⟨y, hy, ?_⟩
  norm_num at he
  have e1 := (abs_le.mp he).1
  have e2 := (abs_le.mp he).2
  have e3 : (X + v) * (c + 1) = X * c + v * c + X + v := by ring
  have e4 : 2 * (c + 1) * t = 2 * (c * t) + 2 * t := by ring
  rw [e3, e4, abs_le]
  constructor <;> linarith

/-- Summation from left to right of non-negative numbers. -/
theorem foldl_rel : ∀ (l : List F) (vs : List ℝ) (s : F) (k : ℕ) (x X : ℝ), l.map val = vs.map .fin → (∀ v ∈ vs, 0 ≤ v ∧ v ≤ 2 ^ 3) →
    k + l.length ≤ 2 ^ 31 → Is s x → 0 ≤ X → X ≤ 2 ^ 3 * k → |x - X| ≤ X * k / 2 ^ 51 + 2 * k * (1 / 2 ^ 1000) →
    ∃ y, Is (l.foldl (· + ·) s) y ∧ |y - (X + vs.sum)| ≤ (X + vs.sum) * (k + l.length : ℕ) / 2 ^ 51 + 2 * (k + l.length : ℕ) * (1 / 2 ^ 1000)
  | [], vs, s, k, x, X, hl, _, _, hs, _, _, h => by
    have : vs = [] := by simpa using hl.symm
    subst this
    exact ⟨x, hs, by simpa using h⟩
  | a :: l, vs, s, k, x, X, hl, hv, hn, hs, hX, hXk, h => by
    obtain ⟨v, vs', rfl⟩ : ∃ v vs', vs = v :: vs' := by
      cases vs with
      | nil => simp at hl
      | cons v vs' => exact ⟨v, vs', rfl⟩
    rw [List.map_cons, List.map_cons, List.cons.injEq] at hl
    rw [List.length_cons] at hn
    obtain ⟨hv0, hvu⟩ := hv v List.mem_cons_self
    have hk' : (k : ℝ) ≤ 2 ^ 31 := by
      have : k ≤ 2 ^ 31 := by omega
      exact_mod_cast this
    obtain ⟨y, hy, hye⟩ := rel_sum_step (F := F) (x := x) (X := X) (v := v) (k := k) (by omega) hX
      (hXk.trans ((mul_le_mul_of_nonneg_left hk' (by norm_num)).trans (by norm_num))) hv0 (hvu.trans (by norm_num)) h
    obtain ⟨z, hz, hze⟩ := foldl_rel l vs' (s + a) (k + 1) y (X + v) hl.2 (fun w hw => hv w (List.mem_cons_of_mem _ hw)) (by omega)
      ((Is.add hs (show Is a v from hl.1)).trans hy) (by linarith) (by push_cast; linarith) hye
    refine ⟨z, hz, ?_⟩
    rw [List.sum_cons, List.length_cons, ← add_assoc, show k + (l.length + 1) = k + 1 + l.length by omega]
    exact hze

/-- Rounded squares. -/
theorem rounded_squares : ∀ (l : List F), (∀ a ∈ l, Pw 1 a) →
    ∃ vs : List ℝ, (l.map fun x => x * x).map val = vs.map .fin ∧ (∀ v ∈ vs, 0 ≤ v ∧ v ≤ 2 ^ 3) ∧
      |vs.sum - ((l.map number).map fun x => x ^ 2).sum| ≤ ((l.map number).map fun x => x ^ 2).sum / 2 ^ 52 + l.length * (1 / 2 ^ 1000)
  | [], _ => ⟨[], rfl, by simp, by simp⟩
  | a :: l, h => by
    obtain ⟨vs, h1, h2, h3⟩ := rounded_squares l fun b hb => h b (List.mem_cons_of_mem _ hb)
    obtain ⟨x, hx, hxb⟩ := h a List.mem_cons_self
    obtain ⟨v, hv, hv0, hvb⟩ := sq_nonneg' hx hxb (by norm_num)
    have hxx : |x * x| ≤ 2 ^ 1000 := by
      rw [abs_mul]
      calc |x| * |x| ≤ 2 ^ 1 * 2 ^ 1 := mul_le_mul hxb hxb (abs_nonneg _) (by norm_num)
        _ = 2 ^ 2 := by norm_num
        _ ≤ 2 ^ 1000 := two_pow_mono (by norm_num)
    obtain ⟨w, hw, hwe⟩ := rnd_acc (F := F) (x * x) hxx
    have hvw : v = w := by
      have := (hv.symm.trans (Is.mul hx hx)).trans hw
      cases this; rfl
    subst hvw
    refine ⟨v :: vs, ?_, ?_, ?_⟩
    · rw [List.map_cons, List.map_cons, List.map_cons, h1, show val (a * a) = .fin v from hv]
    · intro w hw
      rcases List.mem_cons.mp hw with rfl | hw
      · exact ⟨hv0, (le_abs_self _).trans hvb⟩
      · exact h2 w hw
    · rw [List.sum_cons, List.map_cons, List.map_cons, List.sum_cons, List.length_cons, number_of hx]
      push_cast
      rw [show |x * x| = x ^ 2 by rw [abs_mul_self]; ring] at hwe
      generalize (1 : ℝ) / 2 ^ 1000 = t at *
      have a1 := (abs_le.mp hwe).1
      have a2 := (abs_le.mp hwe).2
      have b1 := (abs_le.mp h3).1
      have b2 := (abs_le.mp h3).2
      rw [abs_le]
      constructor <;> nlinarith

theorem sum_squares_nonneg (l : List ℝ) : 0 ≤ (l.map fun x => x ^ 2).sum := by
  apply List.sum_nonneg
  intro y hy
  obtain ⟨x, _, rfl⟩ := List.mem_map.mp hy
  exact sq_nonneg x

theorem sum_squares_le {l : List ℝ} {B : ℝ} (h : ∀ x ∈ l, x ^ 2 ≤ B) : (l.map fun x => x ^ 2).sum ≤ l.length * B := by
  induction l with
  | nil => simp
  | cons a l ih =>
    rw [List.map_cons, List.sum_cons, List.length_cons]
    push_cast
    have := ih fun x hx => h x (List.mem_cons_of_mem _ hx)
    have := h a List.mem_cons_self
    linarith

/-- The energy of a signal, relative to the exact sum of the squares of its samples. -/
theorem energy_rel {s : List F} (hs : ∀ a ∈ s, Pw 1 a) (hl : s.length ≤ 2 ^ 31)
    (hS : 1 / 2 ^ 80 ≤ ((s.map number).map fun x => x ^ 2).sum) :
    Rel (Flt.iterSum (s.map fun x => x * x)) ((s.map number).map fun x => x ^ 2).sum ((s.length + 3 : ℕ) / 2 ^ 51) := by
  obtain ⟨vs, h1, h2, h3⟩ := rounded_squares s hs
  obtain ⟨E, hE, hEe⟩ := foldl_rel (F := F) (s.map fun x => x * x) vs (0.0 : F) 0 0 0 h1 h2 (by rw [List.length_map]; omega) val_0 le_rfl
    (by simp) (by simp)
  refine ⟨sum_squares_nonneg _, E, hE, ?_⟩
  rw [List.length_map, zero_add, Nat.zero_add] at hEe
  have htiny : (1 : ℝ) / 2 ^ 1000 ≤ 1 / 2 ^ 200 := tiny_le_pow (by norm_num)
  have ht0 : (0 : ℝ) ≤ 1 / 2 ^ 1000 := by positivity
  have hv0 : 0 ≤ vs.sum := List.sum_nonneg fun v hv => (h2 v hv).1
  have hn : ((s.length : ℕ) : ℝ) ≤ 2147483648 := by exact_mod_cast (by simpa using hl)
  have hn0 : (0 : ℝ) ≤ s.length := Nat.cast_nonneg _
  push_cast
  generalize (1 : ℝ) / 2 ^ 1000 = t at *
  generalize ((s.map number).map fun x => x ^ 2).sum = S at *
  generalize vs.sum = V at *
  generalize (s.length : ℝ) = n at *
  have hS0 : 0 < S := lt_of_lt_of_le (by positivity) hS
  have hnt : n * t ≤ 2147483648 * t := mul_le_mul_of_nonneg_right hn ht0
  have htS : t ≤ S / 2 ^ 120 := by
    refine htiny.trans ?_
    rw [le_div_iff₀ (by positivity)]
    refine le_trans (le_of_eq ?_) hS
    norm_num
  have hVn : V * n ≤ S * n + (S / 2 ^ 52 + n * t) * 2147483648 := by
    have h4 := (abs_le.mp h3).2
    have : V * n ≤ (S + (S / 2 ^ 52 + n * t)) * n := mul_le_mul_of_nonneg_right (by linarith) hn0
    have h5 : 0 ≤ S / 2 ^ 52 + n * t := by positivity
    have := mul_le_mul_of_nonneg_left hn h5
    linarith
  have a1 := (abs_le.mp hEe).1
  have a2 := (abs_le.mp hEe).2
  have b1 := (abs_le.mp h3).1
  have b2 := (abs_le.mp h3).2
  have e : (n + 3) / 2 ^ 51 * S = (S * n + 3 * S) / 2 ^ 51 := by ring
  rw [e, abs_le]
  norm_num at *
  constructor <;> linarith

/-- A square root halves relative errors; here it is enough that it does not increase them. -/
theorem sqrt_rel {m x e : ℝ} (hx : 0 ≤ x) (he0 : 0 ≤ e) (he : e ≤ 1) (h : |m - x| ≤ e * x) : |Real.sqrt m - Real.sqrt x| ≤ e * Real.sqrt x := by
  have h1 := (abs_le.mp h).1
  have h2 := (abs_le.mp h).2
  have hs := Real.sq_sqrt hx
  have hs0 := Real.sqrt_nonneg x
  rw [abs_le]
  constructor
  · have : (1 - e) * Real.sqrt x ≤ Real.sqrt m := by
      apply Real.le_sqrt_of_sq_le
      rw [mul_pow, hs]
      nlinarith
    linarith
  · have : Real.sqrt m ≤ (1 + e) * Real.sqrt x := by
      refine Real.sqrt_le_iff.mpr ⟨by positivity, ?_⟩
      rw [mul_pow, hs]
      nlinarith
    linarith

/-- Facts about the exact sum of squares of an ordinary signal that is not silent. -/
theorem squares_facts {s : List F} (hs : ∀ a ∈ s, Pw 1 a) (hloud : ∃ a ∈ s, ∃ v, Is a v ∧ 1 / 2 ^ 40 ≤ |v|) :
    1 / 2 ^ 80 ≤ ((s.map number).map fun x => x ^ 2).sum ∧ ((s.map number).map fun x => x ^ 2).sum ≤ (s.length : ℝ) * 4 ∧ 1 ≤ s.length := by
  obtain ⟨a, ha, v, hv, hv1⟩ := hloud
  refine ⟨?_, ?_, List.length_pos_of_mem ha⟩
  · have h1 : v ^ 2 ≤ ((s.map number).map fun x => x ^ 2).sum := by
      refine List.single_le_sum (fun y hy => ?_) _ (List.mem_map.mpr ⟨v, List.mem_map.mpr ⟨a, ha, number_of hv⟩, rfl⟩)
      obtain ⟨x, _, rfl⟩ := List.mem_map.mp hy
      exact sq_nonneg x
    refine le_trans ?_ h1
    rw [← sq_abs]
    calc (1 : ℝ) / 2 ^ 80 = (1 / 2 ^ 40) ^ 2 := by norm_num
      _ ≤ |v| ^ 2 := pow_le_pow_left₀ (by positivity) hv1 2
  · have := sum_squares_le (l := s.map number) (B := 4) (by
      intro x hx
      obtain ⟨b, hb, rfl⟩ := List.mem_map.mp hx
      obtain ⟨y, hy, hyb⟩ := hs b hb
      rw [number_of hy, ← sq_abs]
      calc |y| ^ 2 ≤ (2 ^ 1) ^ 2 := pow_le_pow_left₀ (abs_nonneg _) hyb 2
        _ = 4 := by norm_num)
    rwa [List.length_map] at this

/-- The size of the root mean square. -/
theorem rms_size {s : List F} (hs : ∀ a ∈ s, Pw 1 a) (hl : s.length ≤ 2 ^ 31) (hloud : ∃ a ∈ s, ∃ v, Is a v ∧ 1 / 2 ^ 40 ≤ |v|) :
    1 / 2 ^ 56 ≤ rms (s.map number) ∧ rms (s.map number) ≤ 2 := by
  obtain ⟨h1, h2, h3⟩ := squares_facts hs hloud
  have h3' : (1 : ℝ) ≤ s.length := by exact_mod_cast h3
  have hl' : (s.length : ℝ) ≤ 2 ^ 31 := by exact_mod_cast hl
  unfold rms
  rw [List.length_map]
  constructor
  · apply Real.le_sqrt_of_sq_le
    rw [le_div_iff₀ (by linarith)]
    refine le_trans ?_ h1
    calc (1 / 2 ^ 56 : ℝ) ^ 2 * s.length ≤ (1 / 2 ^ 56) ^ 2 * 2 ^ 31 := mul_le_mul_of_nonneg_left hl' (by positivity)
      _ ≤ 1 / 2 ^ 80 := by norm_num
  · refine Real.sqrt_le_iff.mpr ⟨by norm_num, ?_⟩
    rw [div_le_iff₀ (by linarith)]
    linarith

/-- The ratio of the pressure to the reference pressure. -/
theorem pressure_rel {s : List F} (hs : ∀ a ∈ s, Pw 1 a) (hl : s.length ≤ 2 ^ 31) (hloud : ∃ a ∈ s, ∃ v, Is a v ∧ 1 / 2 ^ 40 ≤ |v|) :
    Rel (Flt.sqrt (Flt.iterSum (s.map fun x => x * x) / Flt.ofNat s.length) / 0.00002 : F) (rms (s.map number) * 50000)
      ((s.length + 11 : ℕ) / 2 ^ 51) := by
  obtain ⟨h1, h2, h3⟩ := squares_facts hs hloud
  obtain ⟨r1, r2⟩ := rms_size hs hl hloud
  have h3' : (1 : ℝ) ≤ s.length := by exact_mod_cast h3
  have hl' : (s.length : ℝ) ≤ 2 ^ 31 := by exact_mod_cast hl
  have hn0 : (0 : ℝ) < s.length := by linarith
  obtain ⟨hS0, E, hE, hEe⟩ := energy_rel hs hl h1
  have hN : Is (Flt.ofNat s.length : F) s.length := val_nat (hl.trans (by norm_num))
  have hb : ∀ k : ℕ, k ≤ 11 → ((s.length + k : ℕ) : ℝ) / 2 ^ 51 ≤ 1 / 2 := by
    intro k hk
    have : ((s.length + k : ℕ) : ℝ) ≤ 2 ^ 50 := by
      have : s.length + k ≤ 2 ^ 50 := by omega
      exact_mod_cast this
    rw [div_le_iff₀ (by positivity)]
    refine this.trans (by norm_num)
  have hstep : ∀ k : ℕ, ((s.length + k : ℕ) : ℝ) / 2 ^ 51 + 1 / 2 ^ 50 = ((s.length + (k + 2) : ℕ) : ℝ) / 2 ^ 51 := by
    intro k; push_cast; ring
  generalize hen : Flt.iterSum (s.map fun x => x * x) = en at *
  -- the mean square
  have hM := rel_round_half (F := F) (x := ((s.map number).map fun x => x ^ 2).sum / s.length) (by
      rw [le_div_iff₀ hn0]
      refine le_trans ?_ h1
      calc (1 : ℝ) / 2 ^ 400 * s.length ≤ 1 / 2 ^ 400 * 2 ^ 31 := mul_le_mul_of_nonneg_left hl' (by positivity)
        _ ≤ 1 / 2 ^ 80 := by
          rw [div_mul_eq_mul_div, one_mul, div_le_div_iff₀ (by positivity) (by positivity), ← pow_add, one_mul]
          exact two_pow_mono (by norm_num)) (by
      rw [div_le_iff₀ hn0]
      calc _ ≤ (s.length : ℝ) * 4 := h2
        _ ≤ s.length * 2 ^ 400 := mul_le_mul_of_nonneg_left (by
          calc (4 : ℝ) = 2 ^ 2 := by norm_num
            _ ≤ 2 ^ 400 := two_pow_mono (by norm_num)) hn0.le
        _ = 2 ^ 400 * s.length := mul_comm _ _) (Is.div hE hN hn0.ne') (by
      rw [← sub_div, abs_div, abs_of_pos hn0, ← mul_div_assoc]
      exact div_le_div_of_nonneg_right hEe hn0.le) (hb 3 (by norm_num))
  rw [hstep] at hM
  obtain ⟨hm0, M, hM, hMe⟩ := hM
  have hMnn : 0 ≤ M := by
    have := (abs_le.mp hMe).1
    have := mul_le_mul_of_nonneg_right (hb 5 (by norm_num)) hm0
    simp only [Nat.reduceAdd] at *
    linarith
  -- its root
  have hr : Real.sqrt (((s.map number).map fun x => x ^ 2).sum / s.length) = rms (s.map number) := by
    unfold rms; rw [List.length_map]
  have hP := rel_round_half (F := F) (x := rms (s.map number)) (by
      refine le_trans (div_le_div_of_nonneg_left (by norm_num) (by positivity) (two_pow_mono (by norm_num))) r1) (by
      refine r2.trans ?_
      calc (2 : ℝ) = 2 ^ 1 := by norm_num
        _ ≤ 2 ^ 400 := two_pow_mono (by norm_num)) (hM.sqrt hMnn) (by
      have := sqrt_rel hm0 (by positivity) ((hb 5 (by norm_num)).trans (by norm_num)) hMe
      rw [hr] at this
      exact this) (hb 5 (by norm_num))
  rw [hstep] at hP
  obtain ⟨_, P, hP, hPe⟩ := hP
  -- divided by the reference pressure
  obtain ⟨c, hc, hce⟩ := lit_near (F := F) (m := 2) (e := 5) (x := 1 / 50000) (by norm_num) (by norm_num) (by norm_num)
  have hcI : Is (0.00002 : F) c := hc
  have hb1 : |50000 * c - 1| ≤ 1 / 2 ^ 51 := by
    rw [show 50000 * c - 1 = 50000 * (c - 1 / 50000) by ring, abs_mul, abs_of_pos (by norm_num : (0 : ℝ) < 50000)]
    linarith
  have hc1 := (abs_le.mp hb1).1
  have hc2 := (abs_le.mp hb1).2
  norm_num at hc1 hc2
  have hc0 : 0 < c := by linarith
  have hrp : 0 < rms (s.map number) := lt_of_lt_of_le (by positivity) r1
  have ha := hb 7 (by norm_num)
  have hq := rel_round_half (F := F) (e := ((s.length + 9 : ℕ) : ℝ) / 2 ^ 51) (x := rms (s.map number) * 50000) (by
      refine le_trans ?_ (le_mul_of_one_le_right hrp.le (by norm_num))
      exact le_trans (div_le_div_of_nonneg_left (by norm_num) (by positivity) (two_pow_mono (by norm_num))) r1) (by
      calc rms (s.map number) * 50000 ≤ 2 * 50000 := mul_le_mul_of_nonneg_right r2 (by norm_num)
        _ ≤ 2 ^ 20 := by norm_num
        _ ≤ 2 ^ 400 := two_pow_mono (by norm_num)) (Is.div hP hcI hc0.ne') (by
      have e9 : ((s.length + 9 : ℕ) : ℝ) / 2 ^ 51 = ((s.length + (5 + 2) : ℕ) : ℝ) / 2 ^ 51 + 2 * (1 / 2 ^ 51) := by push_cast; ring
      rw [e9]
      have ha' : ((s.length + (5 + 2) : ℕ) : ℝ) / 2 ^ 51 ≤ 1 / 2 := ha
      have ha0 : 0 ≤ ((s.length + (5 + 2) : ℕ) : ℝ) / 2 ^ 51 := by positivity
      generalize ((s.length + (5 + 2) : ℕ) : ℝ) / 2 ^ 51 = a at *
      generalize rms (s.map number) = r at *
      have e10 : P / c - r * 50000 = (P - r - r * (50000 * c - 1)) / c := by field_simp; ring
      rw [e10, abs_div, abs_of_pos hc0, div_le_iff₀ hc0]
      have h5 : |r * (50000 * c - 1)| ≤ r * (1 / 2 ^ 51) := by
        rw [abs_mul, abs_of_pos hrp]
        exact mul_le_mul_of_nonneg_left hb1 hrp.le
      have h6 : (1 - 1 / 2 ^ 51 : ℝ) ≤ 50000 * c := by norm_num; linarith
      have h7 : (a + 2 * (1 / 2 ^ 51)) * r * (1 - 1 / 2 ^ 51) ≤ (a + 2 * (1 / 2 ^ 51)) * r * (50000 * c) :=
        mul_le_mul_of_nonneg_left h6 (by positivity)
      have h8 : (a + 1 / 2 ^ 51) * r ≤ (a + 2 * (1 / 2 ^ 51)) * r * (1 - 1 / 2 ^ 51) := by
        have : a * r ≤ 1 / 2 * r := mul_le_mul_of_nonneg_right ha' hrp.le
        norm_num
        linarith
      calc |P - r - r * (50000 * c - 1)| ≤ |P - r| + |r * (50000 * c - 1)| := abs_sub _ _
        _ ≤ a * r + r * (1 / 2 ^ 51) := add_le_add hPe h5
        _ = (a + 1 / 2 ^ 51) * r := by ring
        _ ≤ _ := h8.trans h7
        _ = _ := by ring) (hb 9 (by norm_num))
  rw [hstep] at hq
  exact hq

/-- A small relative error is a small error of the decimal logarithm. -/
theorem logb_rel {Q q e : ℝ} (hq : 0 < q) (he : e ≤ 1 / 2) (h : |Q - q| ≤ e * q) : |Real.logb 10 Q - Real.logb 10 q| ≤ e := by
  have h1 := (abs_le.mp h).1
  have h2 := (abs_le.mp h).2
  have he0 : 0 ≤ e := by
    have := (abs_nonneg _).trans h
    by_contra hc
    have := mul_neg_of_neg_of_pos (not_le.mp hc) hq
    linarith
  have hQ : 0 < Q := by nlinarith
  have h10 : 2 ≤ Real.log 10 := by
    have h8 : Real.log 8 ≤ Real.log 10 := Real.log_le_log (by norm_num) (by norm_num)
    have : Real.log 8 = 3 * Real.log 2 := by
      rw [show (8 : ℝ) = 2 ^ 3 by norm_num, Real.log_pow]; norm_num
    have := Real.log_two_gt_d9
    linarith
  have hu : Real.log (Q / q) ≤ 2 * e := by
    have := Real.log_le_sub_one_of_pos (div_pos hQ hq)
    have : Q / q ≤ 1 + e := by rw [div_le_iff₀ hq]; linarith
    linarith
  have hl : -(2 * e) ≤ Real.log (Q / q) := by
    have h3 := Real.log_le_sub_one_of_pos (div_pos hq hQ)
    have h4 : q / Q ≤ 1 + 2 * e := by
      rw [div_le_iff₀ hQ]
      have : (1 + 2 * e) * (q - e * q) ≤ (1 + 2 * e) * Q := mul_le_mul_of_nonneg_left (by linarith) (by linarith)
      have : 0 ≤ e * q * (1 - 2 * e) := mul_nonneg (by positivity) (by linarith)
      nlinarith
    have h5 : Real.log (q / Q) = -Real.log (Q / q) := by rw [← Real.log_inv, inv_div]
    linarith
  rw [← Real.logb_div hQ.ne' hq.ne', Real.logb, abs_div, abs_of_pos (by linarith : 0 < Real.log 10), div_le_iff₀ (by linarith)]
  have : |Real.log (Q / q)| ≤ 2 * e := abs_le.mpr ⟨hl, hu⟩
  nlinarith

variable [Libm F]

/-- The level of a signal. -/
theorem spl_acc {s : List F} (hs : ∀ a ∈ s, Pw 1 a) (hl : s.length ≤ 2 ^ 31) (hloud : ∃ a ∈ s, ∃ v, Is a v ∧ 1 / 2 ^ 40 ≤ |v|) :
    ∃ L, Is (soundPressureLevel s) L ∧ |L - 20 * Real.logb 10 (rms (s.map number) * 50000)| ≤
      20 * ((s.length + 11 : ℕ) / 2 ^ 51) + 21 / 2 ^ 40 ∧ |L| ≤ 2 ^ 10 := by
  obtain ⟨hq0, Q, hQ, hQe⟩ := pressure_rel hs hl hloud
  obtain ⟨r1, r2⟩ := rms_size hs hl hloud
  have he : ((s.length + 11 : ℕ) : ℝ) / 2 ^ 51 ≤ 1 / 2 ^ 10 := by
    have : ((s.length + 11 : ℕ) : ℝ) ≤ 2 ^ 40 := by
      have : s.length + 11 ≤ 2 ^ 40 := by omega
      exact_mod_cast this
    rw [div_le_iff₀ (by positivity)]
    refine this.trans (by norm_num)
  have hrp : 0 < rms (s.map number) := lt_of_lt_of_le (by positivity) r1
  have hlog := logb_rel (by positivity) (he.trans (by norm_num)) hQe
  have hlb : -(17 : ℝ) ≤ Real.logb 10 (rms (s.map number) * 50000) ∧ Real.logb 10 (rms (s.map number) * 50000) ≤ 6 := by
    have := logb_bounds (Q := rms (s.map number) * 50000) (a := 17) (b := 6) (by
      refine le_trans ?_ (le_mul_of_one_le_right hrp.le (by norm_num))
      exact le_trans (by norm_num) r1) (by
      calc rms (s.map number) * 50000 ≤ 2 * 50000 := mul_le_mul_of_nonneg_right r2 (by norm_num)
        _ ≤ 10 ^ 6 := by norm_num)
    exact_mod_cast this
  have hen : 0 ≤ ((s.length + 11 : ℕ) : ℝ) / 2 ^ 51 := by positivity
  have hQ1 : 1 / 2 ^ 100 ≤ Q ∧ Q ≤ 2 ^ 100 := by
    have h1 := (abs_le.mp hQe).1
    have h2 := (abs_le.mp hQe).2
    generalize ((s.length + 11 : ℕ) : ℝ) / 2 ^ 51 = e at *
    generalize rms (s.map number) = r at *
    have : e * (r * 50000) ≤ 1 / 2 ^ 10 * (r * 50000) := mul_le_mul_of_nonneg_right he hq0
    norm_num at *
    constructor <;> linarith
  obtain ⟨y, hy, hye⟩ := Libm.log10_acc _ Q hQ hQ1.1 hQ1.2
  have hmul := Is.mul (val_20 (F := F)) hy
  generalize ((s.length + 11 : ℕ) : ℝ) / 2 ^ 51 = e at *
  generalize Real.logb 10 (rms (s.map number) * 50000) = g at *
  generalize Real.logb 10 Q = h at *
  have a1 := (abs_le.mp hlog).1
  have a2 := (abs_le.mp hlog).2
  have b1 := (abs_le.mp hye).1
  have b2 := (abs_le.mp hye).2
  norm_num at he b1 b2
  have hyb : |20 * y| ≤ 2 ^ 9 := by rw [abs_le]; norm_num; constructor <;> linarith
  obtain ⟨L, hL, hLe⟩ := rnd_acc (F := F) (20 * y) (hyb.trans (two_pow_mono (by norm_num)))
  have htiny : (1 : ℝ) / 2 ^ 1000 ≤ 1 / 2 ^ 50 := tiny_le_pow (by norm_num)
  generalize (1 : ℝ) / 2 ^ 1000 = t at *
  have hLe2 : |L - 20 * y| ≤ 2 ^ 9 / 2 ^ 52 + 1 / 2 ^ 50 := hLe.trans (add_le_add (div_le_div_of_nonneg_right hyb (by positivity)) htiny)
  have c1 := (abs_le.mp hLe2).1
  have c2 := (abs_le.mp hLe2).2
  norm_num at c1 c2
  have hb2 := (abs_le.mp hyb).1
  have hb3 := (abs_le.mp hyb).2
  refine ⟨L, hmul.trans hL, ?_, ?_⟩
  · rw [abs_le]; norm_num; constructor <;> linarith
  · rw [abs_le]; norm_num at *; constructor <;> linarith

/-- A small error of the exponent is a small relative error of the power. -/
theorem pow_rel {x q h : ℝ} (hq : 0 < q) (hh : h ≤ 1 / 8) (hx : |x - Real.logb 10 q| ≤ h) : |10 ^ x - q| ≤ 5 * h * q := by
  have e : (10 : ℝ) ^ x = q * Real.exp (Real.log 10 * (x - Real.logb 10 q)) := by
    have h1 : (10 : ℝ) ^ x = 10 ^ (Real.logb 10 q) * 10 ^ (x - Real.logb 10 q) := by
      rw [← Real.rpow_add (by norm_num)]; congr 1; ring
    rw [h1, Real.rpow_logb (by norm_num) (by norm_num) hq, Real.rpow_def_of_pos (by norm_num)]
  have h10 : Real.log 10 ≤ 5 / 2 := by
    have h16 : Real.log 10 ≤ Real.log 11 := Real.log_le_log (by norm_num) (by norm_num)
    have h1 : Real.log 10 = Real.log 2 + Real.log 5 := by rw [← Real.log_mul (by norm_num) (by norm_num)]; norm_num
    have h2 : 3 * Real.log 5 ≤ 7 * Real.log 2 := by
      have h3 : Real.log ((5 : ℝ) ^ 3) ≤ Real.log ((2 : ℝ) ^ 7) := Real.log_le_log (by norm_num) (by norm_num)
      rw [Real.log_pow, Real.log_pow] at h3
      exact_mod_cast h3
    have := Real.log_two_lt_d9
    linarith
  have h100 : 0 < Real.log 10 := Real.log_pos (by norm_num)
  have hy : |Real.log 10 * (x - Real.logb 10 q)| ≤ 5 / 2 * h := by
    rw [abs_mul, abs_of_pos h100]
    exact mul_le_mul h10 hx (abs_nonneg _) (by norm_num)
  rw [e, show q * Real.exp (Real.log 10 * (x - Real.logb 10 q)) - q = q * (Real.exp (Real.log 10 * (x - Real.logb 10 q)) - 1) by ring,
    abs_mul, abs_of_pos hq]
  have h1 := Real.abs_exp_sub_one_le (x := Real.log 10 * (x - Real.logb 10 q)) (by linarith)
  have h2 := mul_le_mul_of_nonneg_left (h1.trans (mul_le_mul_of_nonneg_left hy (by norm_num))) hq.le
  refine h2.trans (le_of_eq ?_)
  ring

/-- The accuracy of level matching. -/
noncomputable def levelTol (nr nd : ℕ) : ℝ := (nr + nd : ℕ) / 2 ^ 48 + 1 / 2 ^ 35

/-- The factor by which level matching multiplies. -/
theorem factor_acc {r d : List F} (hr : ∀ a ∈ r, Pw 1 a) (hd : ∀ a ∈ d, Pw 1 a) (hrl : r.length ≤ 2 ^ 31) (hdl : d.length ≤ 2 ^ 31)
    (hr1 : ∃ a ∈ r, ∃ v, Is a v ∧ 1 / 2 ^ 40 ≤ |v|) (hd1 : ∃ a ∈ d, ∃ v, Is a v ∧ 1 / 2 ^ 40 ≤ |v|) :
    ∃ g, Is (Flt.powf 10.0 ((soundPressureLevel r - soundPressureLevel d) / 20.0) : F) g ∧
      |g - rms (r.map number) / rms (d.map number)| ≤ levelTol r.length d.length * (rms (r.map number) / rms (d.map number)) := by
  obtain ⟨Lr, hLr, hLre, hLrb⟩ := spl_acc hr hrl hr1
  obtain ⟨Ld, hLd, hLde, hLdb⟩ := spl_acc hd hdl hd1
  obtain ⟨r1, r2⟩ := rms_size hr hrl hr1
  obtain ⟨d1, d2⟩ := rms_size hd hdl hd1
  have hrp : 0 < rms (r.map number) := lt_of_lt_of_le (by positivity) r1
  have hdp : 0 < rms (d.map number) := lt_of_lt_of_le (by positivity) d1
  have hlq : Real.logb 10 (rms (r.map number) / rms (d.map number)) =
      Real.logb 10 (rms (r.map number) * 50000) - Real.logb 10 (rms (d.map number) * 50000) := by
    rw [← Real.logb_div (by positivity) (by positivity)]
    congr 1
    field_simp
  have hq1 : 1 / 2 ^ 57 ≤ rms (r.map number) / rms (d.map number) := by
    rw [le_div_iff₀ hdp]
    refine le_trans ?_ r1
    calc (1 : ℝ) / 2 ^ 57 * rms (d.map number) ≤ 1 / 2 ^ 57 * 2 := mul_le_mul_of_nonneg_left d2 (by positivity)
      _ = 1 / 2 ^ 56 := by norm_num
  have hq2 : rms (r.map number) / rms (d.map number) ≤ 2 ^ 57 := by
    rw [div_le_iff₀ hdp]
    refine r2.trans ?_
    calc (2 : ℝ) = 2 ^ 57 * (1 / 2 ^ 56) := by norm_num
      _ ≤ 2 ^ 57 * rms (d.map number) := mul_le_mul_of_nonneg_left d1 (by positivity)
  have hqp : 0 < rms (r.map number) / rms (d.map number) := div_pos hrp hdp
  generalize rms (r.map number) / rms (d.map number) = q at *
  generalize Real.logb 10 (rms (r.map number) * 50000) = lr at *
  generalize Real.logb 10 (rms (d.map number) * 50000) = ld at *
  have hnr : (r.length : ℝ) ≤ 2147483648 := by exact_mod_cast (by simpa using hrl)
  have hnd : (d.length : ℝ) ≤ 2147483648 := by exact_mod_cast (by simpa using hdl)
  have hnr0 : (0 : ℝ) ≤ r.length := Nat.cast_nonneg _
  have hnd0 : (0 : ℝ) ≤ d.length := Nat.cast_nonneg _
  unfold levelTol
  push_cast at *
  generalize (r.length : ℝ) = nr at *
  generalize (d.length : ℝ) = nd at *
  have htiny : (1 : ℝ) / 2 ^ 1000 ≤ 1 / 2 ^ 50 := tiny_le_pow (by norm_num)
  have htiny0 : (0 : ℝ) < 1 / 2 ^ 1000 := by positivity
  have hsub := Is.sub hLr hLd
  have a1 := (abs_le.mp hLre).1
  have a2 := (abs_le.mp hLre).2
  have b1 := (abs_le.mp hLde).1
  have b2 := (abs_le.mp hLde).2
  have c1 := (abs_le.mp hLrb).1
  have c2 := (abs_le.mp hLrb).2
  have c3 := (abs_le.mp hLdb).1
  have c4 := (abs_le.mp hLdb).2
  have hDb : |Lr - Ld| ≤ 2 ^ 11 := by rw [abs_le]; norm_num at *; constructor <;> linarith
  obtain ⟨D, hD, hDe⟩ := rnd_acc (F := F) (Lr - Ld) (hDb.trans (two_pow_mono (by norm_num)))
  have hDe2 : |D - (Lr - Ld)| ≤ 2 ^ 11 / 2 ^ 52 + 1 / 2 ^ 50 := hDe.trans (add_le_add (div_le_div_of_nonneg_right hDb (by positivity)) htiny)
  have d1 := (abs_le.mp hDe2).1
  have d2 := (abs_le.mp hDe2).2
  have hdiv := Is.div (show Is (soundPressureLevel r - soundPressureLevel d) D from hsub.trans hD) (val_20 (F := F)) (by norm_num)
  have hXb : |D / 20| ≤ 2 ^ 8 := by rw [abs_le]; norm_num at *; constructor <;> linarith
  obtain ⟨X, hX, hXe⟩ := rnd_acc (F := F) (D / 20) (hXb.trans (two_pow_mono (by norm_num)))
  have hXe2 : |X - D / 20| ≤ 2 ^ 8 / 2 ^ 52 + 1 / 2 ^ 50 := hXe.trans (add_le_add (div_le_div_of_nonneg_right hXb (by positivity)) htiny)
  have e1 := (abs_le.mp hXe2).1
  have e2 := (abs_le.mp hXe2).2
  have hexp : |X - Real.logb 10 q| ≤ (nr + nd) / 2 ^ 51 + 3 / 2 ^ 40 := by
    rw [hlq, abs_le]
    norm_num at *
    constructor <;> linarith
  have hh : (nr + nd) / 2 ^ 51 + 3 / 2 ^ 40 ≤ 1 / 2 ^ 10 := by norm_num; linarith
  have hpow := pow_rel hqp (hh.trans (by norm_num)) hexp
  have p1 := (abs_le.mp hpow).1
  have p2 := (abs_le.mp hpow).2
  have hhq := mul_le_mul_of_nonneg_right hh hqp.le
  have hw1 : 1 / 2 ^ 500 ≤ (10 : ℝ) ^ X := by
    refine le_trans (div_le_div_of_nonneg_left (by norm_num) (by positivity) (two_pow_mono (show 58 ≤ 500 by norm_num))) ?_
    norm_num at *
    linarith
  have hw2 : (10 : ℝ) ^ X ≤ 2 ^ 500 := by
    refine le_trans ?_ (two_pow_mono (show 58 ≤ 500 by norm_num))
    norm_num at *
    linarith
  obtain ⟨g, hg, hge⟩ := Libm.powf_acc _ _ _ _ (val_10 (F := F)) (hdiv.trans hX) (by norm_num) hw1 hw2
  refine ⟨g, hg, ?_⟩
  clear hw1 hw2 htiny htiny0 hDe hXe
  generalize (10 : ℝ) ^ X = w at *
  have g1 := (abs_le.mp hge).1
  have g2 := (abs_le.mp hge).2
  have hnq : 0 ≤ nr * q := mul_nonneg hnr0 hqp.le
  have hnq2 : 0 ≤ nd * q := mul_nonneg hnd0 hqp.le
  have f1 : 5 * ((nr + nd) / 2 ^ 51 + 3 / 2 ^ 40) * q = 5 * (nr * q + nd * q) / 2 ^ 51 + 15 / 2 ^ 40 * q := by ring
  have f2 : ((nr + nd) / 2 ^ 48 + 1 / 2 ^ 35) * q = (nr * q + nd * q) / 2 ^ 48 + 1 / 2 ^ 35 * q := by ring
  have f3 : ((nr + nd) / 2 ^ 51 + 3 / 2 ^ 40) * q = (nr * q + nd * q) / 2 ^ 51 + 3 / 2 ^ 40 * q := by ring
  rw [f1] at p1 p2
  rw [f3] at hhq
  rw [f2, abs_le]
  generalize nr * q = x at *
  generalize nd * q = y at *
  norm_num at *
  constructor <;> linarith

end Visqol
