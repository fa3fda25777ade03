import Verif.Lemmas.IeeeCell

/-! # Floating point: standard deviations are numbers, and not negative -/

set_option linter.unusedSectionVars false

namespace Visqol
open Ieee

variable {F : Type} [Flt F] [Ieee F]

/-- A number is not changed by rounding. -/
theorem rnd_fixed {a : F} {x : ℝ} (h : Is a x) (hx : |x| ≤ 2 ^ 1000) : rnd F x = .fin x := by
  obtain ⟨y, hy, _⟩ := rnd_acc (F := F) x hx
  rw [hy, le_antisymm (rnd_upper h hy le_rfl) (rnd_lower h hy le_rfl)]

theorem rnd_nonpos {x y : ℝ} (h : rnd F x = .fin y) (hx : x ≤ 0) : y ≤ 0 := by
  rcases rnd_le (F := F) (0.0 : F) 0 x val_0 hx with e | ⟨z, e, hz⟩
  · rw [h] at e; cases e
  · rw [h] at e; cases e; exact hz

theorem le_big {z B : ℝ} (hB : B ≤ 2 ^ 400) (h : z ≤ 8 * B) : z ≤ 2 ^ 900 := by
  calc z ≤ 8 * B := h
    _ ≤ 2 ^ 3 * 2 ^ 400 := by norm_num only; gcongr
    _ = 2 ^ 403 := by rw [← pow_add]
    _ ≤ 2 ^ 900 := two_pow_mono (by norm_num)

theorem le_huge {z B : ℝ} (hB : B ≤ 2 ^ 900) (h : z ≤ 2 * B) : z ≤ 2 ^ 1000 := by
  calc z ≤ 2 * B := h
    _ ≤ 2 * 2 ^ 900 := by gcongr
    _ = 2 ^ 901 := by rw [← pow_succ']
    _ ≤ 2 ^ 1000 := two_pow_mono (by norm_num)

theorem le_huge' {z B : ℝ} (hB : B ≤ 2 ^ 400) (h : z ≤ 8 * B) : z ≤ 2 ^ 1000 :=
  (le_big hB h).trans (two_pow_mono (by norm_num))

variable [Libm F]

/-- At most half of the rounded difference of two numbers is not more than the difference. -/
theorem half_step {a b : F} {x y δ q t : ℝ} (ha : Is a x) (hb : Is b y) (hd : rnd F (x - y) = .fin δ) {c : F} (hc : Is c δ)
    (ht : 2 ≤ t) (hq : rnd F (δ / t) = .fin q) (hxy : |x - y| ≤ 2 ^ 900) : |q| ≤ |x - y| := by
  have ht0 : (0 : ℝ) < t := by linarith
  have hdt : |δ / t| ≤ |δ| / 2 := by
    rw [abs_div, abs_of_pos ht0]
    exact div_le_div_of_nonneg_left (abs_nonneg _) (by norm_num) ht
  have hd0 := abs_nonneg δ
  by_cases hs : |x - y| ≤ 1 / 2 ^ 1021
  · have := Libm.sub_small a b x y ha hb hs
    rw [hd] at this
    injection this with e
    rw [← e]
    have h1 := abs_le.mp (hdt.trans (show |δ| / 2 ≤ |δ| by linarith))
    rcases le_total 0 δ with h | h
    · rw [abs_of_nonneg h] at h1 ⊢
      rw [abs_of_nonneg (rnd_nonneg hq (div_nonneg h ht0.le))]
      exact rnd_upper hc hq h1.2
    · rw [abs_of_nonpos h] at h1 ⊢
      rw [abs_of_nonpos (rnd_nonpos hq (div_nonpos_of_nonpos_of_nonneg h ht0.le))]
      have := rnd_lower hc hq (by linarith [h1.1])
      linarith
  · have hs := (not_le.mp hs).le
    have h53 : (1 : ℝ) / 2 ^ 1074 = 1 / 2 ^ 1021 / 2 ^ 53 := by rw [div_div, ← pow_add]
    obtain ⟨δ', e1, e2⟩ := Libm.rnd_tight (F := F) (x - y) (le_huge hxy (by linarith only [abs_nonneg (x - y)]))
    rw [hd] at e1; injection e1 with e1; rw [← e1] at e2
    have hδ : |δ| ≤ |δ - (x - y)| + |x - y| := by simpa using abs_add_le (δ - (x - y)) (x - y)
    have hδ2 : |δ| ≤ 3 / 2 * |x - y| := by
      rw [h53] at e2
      generalize (1 : ℝ) / 2 ^ 1021 = T at *
      norm_num at e2
      linarith only [hδ, e2, hs, abs_nonneg (x - y)]
    obtain ⟨q', f1, f2⟩ := Libm.rnd_tight (F := F) (δ / t) (le_huge hxy (by linarith only [hdt, hδ2, abs_nonneg (x - y)]))
    rw [hq] at f1; injection f1 with f1; rw [← f1] at f2
    have hq2 : |q| ≤ |q - δ / t| + |δ / t| := by simpa using abs_add_le (q - δ / t) (δ / t)
    rw [h53] at f2
    generalize (1 : ℝ) / 2 ^ 1021 = T at *
    norm_num at f2
    linarith only [hq2, f2, hs, hdt, hδ2, abs_nonneg (x - y), abs_nonneg (δ / t)]

/-- One step of the running mean: the new mean lies between the old one and the new value, and the product of the two deviations is not
negative. -/
theorem welford_step {a b : F} {x y B : ℝ} {i : ℕ} (ha : Is a x) (hb : Is b y) (hx : |x| ≤ B) (hy : |y| ≤ B) (hB1 : 1 ≤ B)
    (hB2 : B ≤ 2 ^ 400) (hi : 1 ≤ i) (hi2 : i + 1 ≤ 2 ^ 53) :
    ∃ m u v, Is (b + (a - b) / Flt.ofNat (i + 1)) m ∧ |m| ≤ B ∧ Is (a - b) u ∧ Is (a - (b + (a - b) / Flt.ofNat (i + 1))) v ∧
      0 ≤ v * u ∧ |v * u| ≤ 9 * B ^ 2 := by
  have ht : (1 : ℝ) / 2 ^ 1000 ≤ 1 / 2 ^ 20 := tiny_le_pow (by norm_num)
  have hxy : |x - y| ≤ 2 * B := (abs_sub x y).trans (by linarith)
  have h900 : |x - y| ≤ 2 ^ 900 := le_big hB2 (by linarith only [hxy, hB1])
  have hsub : ∀ z : ℝ, |z| ≤ 2 * B → ∃ w, rnd F z = .fin w ∧ |w| ≤ 3 * B := fun z hz => by
    obtain ⟨w, h1, h2⟩ := rnd_acc (F := F) z (le_huge' hB2 (by linarith only [hz, hB1]))
    refine ⟨w, h1, ?_⟩
    have h3 : |w| ≤ |w - z| + |z| := by simpa using abs_add_le (w - z) z
    generalize (1 : ℝ) / 2 ^ 1000 = tiny at *
    norm_num at h2 ht
    linarith
  obtain ⟨u, hu, hub⟩ := hsub _ hxy
  have hu' : Is (a - b) u := (Is.sub ha hb).trans hu
  have hn : Is (Flt.ofNat (i + 1) : F) ((i + 1 : ℕ) : ℝ) := val_nat hi2
  have hn2 : (2 : ℝ) ≤ ((i + 1 : ℕ) : ℝ) := by exact_mod_cast (by omega : 2 ≤ i + 1)
  obtain ⟨q, hq, _⟩ := rnd_acc (F := F) (u / ((i + 1 : ℕ) : ℝ)) (by
    rw [abs_div, abs_of_nonneg (by linarith : (0 : ℝ) ≤ ((i + 1 : ℕ) : ℝ))]
    exact (div_le_self (abs_nonneg _) (by linarith only [hn2])).trans (le_huge' hB2 (by linarith only [hub, hB1])))
  have hq' : Is ((a - b) / Flt.ofNat (i + 1)) q := (Is.div hu' hn (by linarith)).trans hq
  have hqx := half_step ha hb hu hu' hn2 hq h900
  obtain ⟨m, hm, _⟩ := rnd_acc (F := F) (y + q) (by
    exact le_huge' hB2 (by linarith only [abs_add_le y q, hqx, hxy, hy, hB1]))
  have hm' : Is (b + (a - b) / Flt.ofNat (i + 1)) m := (Is.add hb hq').trans hm
  have key : (0 ≤ u ∧ y ≤ m ∧ m ≤ x) ∨ (u ≤ 0 ∧ x ≤ m ∧ m ≤ y) := by
    rcases le_total y x with h | h
    · have h1 := rnd_nonneg hu (by linarith)
      have h2 := rnd_nonneg hq (div_nonneg h1 (by linarith))
      rw [abs_of_nonneg h2, abs_of_nonneg (by linarith)] at hqx
      exact .inl ⟨h1, rnd_lower hb hm (by linarith), rnd_upper ha hm (by linarith)⟩
    · have h1 := rnd_nonpos hu (by linarith)
      have h2 := rnd_nonpos hq (div_nonpos_of_nonpos_of_nonneg h1 (by linarith))
      rw [abs_of_nonpos h2, abs_of_nonpos (by linarith)] at hqx
      exact .inr ⟨h1, rnd_lower ha hm (by linarith), rnd_upper hb hm (by linarith)⟩
  have hmB : |m| ≤ B := by
    have h1 := abs_le.mp hx
    have h2 := abs_le.mp hy
    rw [abs_le]
    rcases key with ⟨_, k1, k2⟩ | ⟨_, k1, k2⟩ <;> constructor <;> linarith
  obtain ⟨v, hv, hvb⟩ := hsub (x - m) ((abs_sub x m).trans (by linarith))
  refine ⟨m, u, v, hm', hmB, hu', (Is.sub ha hm').trans hv, ?_, ?_⟩
  · rcases key with ⟨k0, _, k2⟩ | ⟨k0, k1, _⟩
    · exact mul_nonneg (rnd_nonneg hv (by linarith)) k0
    · exact mul_nonneg_of_nonpos_of_nonpos (rnd_nonpos hv (by linarith)) k0
  · rw [abs_mul]
    calc |v| * |u| ≤ (3 * B) * (3 * B) := mul_le_mul hvb hub (abs_nonneg _) (by linarith)
      _ = 9 * B ^ 2 := by ring

/-- The sum of squared deviations. -/
theorem welford_bd {B : ℝ} (hB1 : 1 ≤ B) (hB2 : B ≤ 2 ^ 400) : ∀ (l : List F) (i k : ℕ) (b s : F), (∀ a ∈ l, Bd B a) → Bd B b →
    (∃ σ, Is s σ ∧ 0 ≤ σ ∧ |σ| ≤ grow (9 * B ^ 2) k) → 1 ≤ i → i + l.length ≤ 2 ^ 50 → k + l.length ≤ 2 ^ 50 →
    ∃ σ, Is (welford l i b s) σ ∧ 0 ≤ σ ∧ |σ| ≤ grow (9 * B ^ 2) (k + l.length)
  | [], _, _, _, _, _, _, hs, _, _, _ => by simpa [welford] using hs
  | a :: l, i, k, b, s, hl, hb, ⟨σ, h1, h2, h3⟩, hi, hil, hkl => by
    rw [List.length_cons] at hil hkl ⊢
    obtain ⟨x, ha, hx⟩ := hl a (by simp)
    obtain ⟨y, hb', hy⟩ := hb
    obtain ⟨m, u, v, e1, e2, e3, e4, e5, e6⟩ := welford_step ha hb' hx hy hB1 hB2 hi (by omega)
    have hS : 9 * B ^ 2 ≤ 2 ^ 900 := by
      calc 9 * B ^ 2 ≤ 2 ^ 4 * (2 ^ 400) ^ 2 := by gcongr; norm_num
        _ = 2 ^ 804 := by rw [← pow_mul, ← pow_add]
        _ ≤ 2 ^ 900 := two_pow_mono (by norm_num)
    obtain ⟨z, hz, hzb⟩ := grow_step (F := F) (x := σ) (y := v * u) (k := k) (S := 9 * B ^ 2) (by nlinarith) hS (by omega) h3 e6
    have hz0 : 0 ≤ z := rnd_nonneg hz (by linarith)
    have hs' : Is (Flt.mulAdd (a - (b + (a - b) / Flt.ofNat (i + 1))) (a - b) s) z := by
      rw [Is, Libm.val_mulAdd _ _ _ v u σ e4 e3 h1, add_comm]; exact hz
    have := welford_bd hB1 hB2 l (i + 1) (k + 1) _ _ (fun c hc => hl c (by simp [hc])) ⟨m, e1, e2⟩ ⟨z, hs', hz0, hzb⟩ (by omega) (by omega)
      (by omega)
    rw [show k + (l.length + 1) = k + 1 + l.length by omega]
    exact this

/-- The sample standard deviation of at least two numbers is a number and not negative. -/
theorem stdRow_bd {B : ℝ} (hB1 : 1 ≤ B) (hB2 : B ≤ 2 ^ 400) {l : List F} (hl : ∀ a ∈ l, Bd B a) (h2 : 2 ≤ l.length)
    (h32 : l.length ≤ 2 ^ 32) : ∃ d, Is (stdRow l) d ∧ 0 ≤ d ∧ d ≤ 7 * B := by
  have ht : (1 : ℝ) / 2 ^ 1000 ≤ 1 / 2 ^ 20 := tiny_le_pow (by norm_num)
  have hT2 : ∀ z : ℝ, |z| ≤ 40 * B ^ 2 → |z| ≤ 2 ^ 1000 := fun z hz => by
    calc |z| ≤ 40 * B ^ 2 := hz
      _ ≤ 2 ^ 6 * (2 ^ 400) ^ 2 := by gcongr; norm_num
      _ = 2 ^ 806 := by rw [← pow_mul, ← pow_add]
      _ ≤ 2 ^ 1000 := two_pow_mono (by norm_num)
  match l, hl, h2, h32 with
  | [], _, h, _ => simp at h
  | a :: l, hl, h2, h32 =>
    rw [List.length_cons] at h2 h32
    obtain ⟨x, ha, hx⟩ := hl a (by simp)
    have hx1000 : |x| ≤ 2 ^ 1000 := le_huge' hB2 (by linarith only [hx, hB1])
    have e1 : Is (a - 0.0 : F) x := (Is.sub ha val_0).trans (by rw [sub_zero]; exact rnd_fixed ha hx1000)
    have hone : Is (Flt.ofNat (0 + 1) : F) 1 := by have := val_nat (F := F) (n := 1) (by norm_num); rw [Nat.cast_one] at this; exact this
    have e2 : Is ((a - 0.0) / Flt.ofNat (0 + 1) : F) x :=
      (Is.div e1 hone one_ne_zero).trans (by rw [div_one]; exact rnd_fixed ha hx1000)
    have e3 : Is (0.0 + (a - 0.0) / Flt.ofNat (0 + 1) : F) x := (Is.add val_0 e2).trans (by rw [zero_add]; exact rnd_fixed ha hx1000)
    have e4 : Is (a - (0.0 + (a - 0.0) / Flt.ofNat (0 + 1)) : F) 0 :=
      (Is.sub ha e3).trans (by rw [sub_self]; exact rnd_fixed (F := F) val_0 (by rw [abs_zero]; positivity))
    have e5 : Is (Flt.mulAdd (a - (0.0 + (a - 0.0) / Flt.ofNat (0 + 1))) (a - 0.0) 0.0 : F) 0 := by
      rw [Is, Libm.val_mulAdd _ _ _ 0 x 0 e4 e1 val_0, zero_mul, zero_add]
      exact rnd_fixed (F := F) val_0 (by rw [abs_zero]; positivity)
    obtain ⟨σ, s1, s2, s3⟩ := welford_bd hB1 hB2 l 1 0 _ _ (fun c hc => hl c (by simp [hc])) ⟨x, e3, hx⟩
      ⟨0, e5, le_rfl, by simp [grow]⟩ le_rfl (by omega) (by omega)
    rw [Nat.zero_add] at s3
    have s3' := s3.trans (grow_le (by positivity) (by omega))
    have hnm : Is (Flt.ofNat (l.length + 1) - 1.0 : F) (l.length : ℝ) := by
      refine (Is.sub (val_nat (F := F) (n := l.length + 1) (by omega)) val_1).trans ?_
      push_cast
      rw [add_sub_cancel_right]
      refine rnd_fixed (val_nat (F := F) (n := l.length) (by omega)) ?_
      rw [abs_of_nonneg (Nat.cast_nonneg _)]
      calc (l.length : ℝ) ≤ 2 ^ 32 := by exact_mod_cast (by omega : l.length ≤ 2 ^ 32)
        _ ≤ 2 ^ 1000 := two_pow_mono (by norm_num)
    have hl0 : (0 : ℝ) < l.length := by exact_mod_cast (by omega : 0 < l.length)
    have hquo : |σ / l.length| ≤ 18 * B ^ 2 := by
      rw [abs_div, abs_of_pos hl0, div_le_iff₀ hl0]
      linarith
    have hB2' : 1 ≤ B ^ 2 := one_le_pow₀ hB1
    obtain ⟨w, hw, hwe⟩ := rnd_acc (F := F) (σ / l.length) (hT2 _ (by linarith))
    have hw0 := rnd_nonneg hw (div_nonneg s2 hl0.le)
    have hwI : Is (welford (a :: l) 0 0.0 0.0 / (Flt.ofNat (a :: l).length - 1.0) : F) w := (Is.div s1 hnm hl0.ne').trans hw
    have hwb : w ≤ 20 * B ^ 2 := by
      have h3 : |w| ≤ |w - σ / l.length| + |σ / l.length| := by simpa using abs_add_le (w - σ / l.length) (σ / l.length)
      rw [abs_of_nonneg hw0] at h3
      clear hT2 hx1000
      generalize (1 : ℝ) / 2 ^ 1000 = tiny at *
      norm_num at hwe ht
      linarith
    have hsq : Real.sqrt w ≤ 5 * B := by
      rw [Real.sqrt_le_left (by linarith)]
      nlinarith
    obtain ⟨d, hd, hde⟩ := rnd_acc (F := F) (Real.sqrt w) (by
      rw [abs_of_nonneg (Real.sqrt_nonneg _)]
      exact le_huge' hB2 (by linarith only [hsq, hB1]))
    refine ⟨d, (hwI.sqrt hw0).trans hd, rnd_nonneg hd (Real.sqrt_nonneg _), ?_⟩
    have h3 := (abs_le.mp hde).2
    rw [abs_of_nonneg (Real.sqrt_nonneg _)] at h3
    clear hT2 hx1000 hwe hde
    generalize (1 : ℝ) / 2 ^ 1000 = tiny at *
    norm_num at h3 ht
    linarith

end Visqol
