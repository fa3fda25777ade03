import Verif.Lemmas.Ieee

/-! # Spectrogram preparation in floating point -/

set_option linter.unusedSectionVars false

namespace Visqol
open Ieee
variable {F : Type} [Flt F] [Ieee F]

theorem partialCmp_fin {a b : F} {x y : ℝ} (ha : Is a x) (hb : Is b y) :
    Flt.partialCmp a b = some (if x < y then .lt else if y < x then .gt else .eq) := by
  unfold Flt.partialCmp
  rw [ha.lt hb, hb.lt ha, ha.eq hb]
  rcases lt_trichotomy x y with h | h | h
  · simp [h]
  · simp [h]
  · simp [h, not_lt.mpr h.le]

/-- Finite numbers have a largest and a smallest one. -/
theorem extremum_fin {keep : Ordering} {l : List F} (h : l ≠ []) (hf : ∀ a ∈ l, ∃ x, Is a x) :
    ∃ m ∈ l, extremum keep l = some m := by
  have key : ∀ (l' : List F) (a : F), (∀ b ∈ l', b ∈ l) → a ∈ l → ∃ m ∈ l, l'.foldl (fun acc x => do
      let m ← acc
      let c ← Flt.partialCmp x m
      some (if c = keep then x else m)) (some a) = some m := by
    intro l'
    induction l' with
    | nil => intro a _ ha; exact ⟨a, ha, rfl⟩
    | cons b l' ih =>
      intro a hl ha
      obtain ⟨x, hx⟩ := hf a ha
      obtain ⟨y, hy⟩ := hf b (hl b (by simp))
      rw [List.foldl_cons]
      simp only [Option.bind_eq_bind, Option.bind_some, partialCmp_fin hy hx] at ih ⊢
      generalize (if y < x then Ordering.lt else if x < y then Ordering.gt else Ordering.eq) = c
      by_cases hc : c = keep
      · rw [if_pos hc]
        exact ih b (fun c hc => hl c (by simp [hc])) (hl b (by simp))
      · rw [if_neg hc]
        exact ih a (fun c hc => hl c (by simp [hc])) ha
  cases l with
  | nil => exact absurd rfl h
  | cons a l =>
    unfold extremum
    exact key _ a (fun b hb => hb) (by simp)

/-- Rounding a number of moderate size changes it by less than one. -/
theorem rnd_within_one (F : Type) [Flt F] [Ieee F] {x : ℝ} (h : |x| ≤ 2 ^ 20) : ∃ y, rnd F x = .fin y ∧ |y - x| ≤ 1 := by
  obtain ⟨y, hy1, hy2⟩ := rnd_acc (F := F) x (h.trans (pow_le_pow_right₀ (by norm_num) (by norm_num)))
  refine ⟨y, hy1, hy2.trans ?_⟩
  have h3 : (1 : ℝ) / 2 ^ 1000 ≤ 1 / 2 ^ 1 :=
    div_le_div_of_nonneg_left (by norm_num) (by positivity) (pow_le_pow_right₀ (by norm_num) (by norm_num))
  have h4 : |x| / 2 ^ 52 ≤ 1 / 2 := by
    rw [div_le_div_iff₀ (by norm_num) (by norm_num)]
    clear hy2
    norm_num at h ⊢; linarith
  generalize (1 : ℝ) / 2 ^ 1000 = T at *
  linarith

/-- The decibel value of a number that is not infinite, not below -45: finite and of moderate size. -/
theorem db_fin {a : F} (h : ∀ s, val a ≠ .inf s) : ∃ x, Is (Flt.max (-45.0) (sampleToDb a)) x ∧ -45 ≤ x ∧ x ≤ 3600 := by
  have h45 : Is (-45.0 : F) (-45) := Is.neg val_45
  have key : ∀ b : F, ∀ y : ℝ, Is b y → 0 < y → ∃ x, Is (Flt.max (-45.0) (10.0 * Flt.log10 b)) x ∧ -45 ≤ x ∧ x ≤ 3600 := by
    intro b y hb hy
    obtain ⟨z, hz1, hz2⟩ := log10_pos b y hb hy
    have hr : |Real.logb 10 y| ≤ 358 := by
      rcases range b y hb with h0 | ⟨h1, h2⟩
      · exact absurd h0 hy.ne'
      rw [abs_of_pos hy] at h1 h2
      have l2 : 3 * Real.logb 10 2 ≤ 1 := by
        have e : 3 * Real.logb 10 2 = Real.logb 10 (2 ^ 3) := by rw [Real.logb_pow]; norm_num
        rw [e, Real.logb_le_iff_le_rpow (by norm_num) (by norm_num)]; norm_num
      have l0 : 0 ≤ Real.logb 10 2 := Real.logb_nonneg (by norm_num) (by norm_num)
      have u : Real.logb 10 y ≤ 358 := by
        calc Real.logb 10 y ≤ Real.logb 10 (2 ^ 1024) := Real.logb_le_logb_of_le (by norm_num) hy h2
          _ = 1024 * Real.logb 10 2 := by rw [Real.logb_pow]; norm_num
          _ ≤ 358 := by linarith
      have d : -358 ≤ Real.logb 10 y := by
        calc (-358 : ℝ) ≤ -(1074 * Real.logb 10 2) := by linarith
          _ = Real.logb 10 (1 / 2 ^ 1074) := by rw [one_div, Real.logb_inv, Real.logb_pow]; norm_num
          _ ≤ Real.logb 10 y := Real.logb_le_logb_of_le (by norm_num) (by positivity) h1
      rw [abs_le]; constructor <;> linarith
    have hzb : |z| ≤ 359 := by
      have := abs_add_le (z - Real.logb 10 y) (Real.logb 10 y)
      simp only [sub_add_cancel] at this
      linarith
    have hm := Is.mul (F := F) val_10 hz1
    have hb2 : |10 * z| ≤ 3590 := by rw [abs_mul]; norm_num; linarith
    obtain ⟨v, hv1, hv2⟩ := rnd_within_one F (x := 10 * z) (hb2.trans (by norm_num))
    rw [hv1] at hm
    refine ⟨_, Is.max h45 hm, le_max_left _ _, max_le (by norm_num) ?_⟩
    have h1 := (abs_le.mp hv2).2
    have h2 := (abs_le.mp hb2).2
    linarith
  unfold sampleToDb
  simp only [eq_val, val_0]
  cases ha : val a with
  | nan =>
    refine ⟨-45, ?_, le_refl _, by norm_num⟩
    simp only [Val.eq, Bool.false_eq_true, if_false]
    rw [max_nan_right h45]
    · exact h45
    · exact nan_mul (.inr (log10_nan _ (nan_abs ha)))
  | inf s => exact absurd ha (h s)
  | fin y =>
    by_cases hy : y = 0
    · simp only [Val.eq, hy, decide_true, if_true]
      exact key _ _ val_epsilon (by positivity)
    · simp only [Val.eq, hy, decide_false, Bool.false_eq_true, if_false]
      exact key _ |y| (Is.abs ha) (by positivity)

end Visqol
