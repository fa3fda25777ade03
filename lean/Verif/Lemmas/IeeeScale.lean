import Verif.Lemmas.IeeeFilter

/-! # Floating point: level matching of ordinary signals gives ordinary signals -/

set_option linter.unusedSectionVars false

namespace Visqol
open Ieee

variable {F : Type} [Flt F] [Ieee F]

/-- Positive, with known order of magnitude. -/
def Btw (lo hi : ℕ) (a : F) : Prop := ∃ x, Is a x ∧ 1 / 2 ^ lo ≤ x ∧ x ≤ 2 ^ hi

theorem Btw.of_rnd {a : F} {x : ℝ} {lo hi : ℕ} (h : val a = rnd F x) (h1 : 1 / 2 ^ lo ≤ x) (h2 : x ≤ 2 ^ hi) (hlo : lo ≤ 890)
    (hhi : hi ≤ 890) : Btw (lo + 1) (hi + 1) a := by
  have hp : (0 : ℝ) < 1 / 2 ^ lo := by positivity
  obtain ⟨y, hy, he⟩ := rnd_rel F (x := x) (.inr ⟨(div_le_div_of_nonneg_left (by norm_num) (by positivity)
    (two_pow_mono (by omega))).trans h1, h2.trans (two_pow_mono (by omega))⟩)
  have e1 := (abs_le.mp he).1
  have e2 := (abs_le.mp he).2
  have hx : 0 < x := lt_of_lt_of_le hp h1
  refine ⟨y, h.trans hy, ?_, ?_⟩
  · have e : (1 : ℝ) / 2 ^ (lo + 1) = 1 / 2 ^ lo / 2 := by rw [pow_succ]; field_simp
    rw [e]
    generalize (1 : ℝ) / 2 ^ lo = t at *
    norm_num at e1
    linarith
  · have e : (2 : ℝ) ^ (hi + 1) = 2 * 2 ^ hi := by rw [pow_succ]; ring
    rw [e]
    generalize (2 : ℝ) ^ hi = t at *
    norm_num at e2
    linarith

theorem Btw.sqrt {a : F} {x : ℝ} {lo hi : ℕ} (h : Is a x) (h1 : 1 / 2 ^ (2 * lo) ≤ x) (h2 : x ≤ 2 ^ (2 * hi)) (hlo : lo ≤ 890)
    (hhi : hi ≤ 890) : Btw (lo + 1) (hi + 1) (Flt.sqrt a) := by
  have hx : 0 ≤ x := le_trans (by positivity) h1
  refine Btw.of_rnd (h.sqrt hx) ?_ ?_ hlo hhi
  · apply Real.le_sqrt_of_sq_le
    rw [div_pow, one_pow, ← pow_mul, Nat.mul_comm]
    exact h1
  · apply Real.sqrt_le_iff.mpr ⟨by positivity, ?_⟩
    rw [← pow_mul, Nat.mul_comm]
    exact h2

/-- The sum of non-negative numbers is at least each of them. -/
theorem foldl_nonneg {S : ℝ} (hS1 : 1 ≤ S) (hS2 : S ≤ 2 ^ 900) : ∀ (l : List F) (s : F) (k : ℕ) (x : ℝ), Is s x → 0 ≤ x → |x| ≤ grow S k →
    (∀ a ∈ l, ∃ v, Is a v ∧ 0 ≤ v ∧ |v| ≤ S) → k + l.length ≤ 2 ^ 50 →
    ∃ y, Is (l.foldl (· + ·) s) y ∧ x ≤ y ∧ ∀ a ∈ l, ∀ v, Is a v → v ≤ y
  | [], s, k, x, hs, _, _, _, _ => ⟨x, hs, le_rfl, by simp⟩
  | a :: l, s, k, x, hs, hx0, hx, h, hn => by
    rw [List.length_cons] at hn
    obtain ⟨v, hv, hv0, hvS⟩ := h a (by simp)
    obtain ⟨z, hz1, hz2⟩ := grow_step (F := F) hS1 hS2 (by omega) hx hvS
    have hsa : Is (s + a) z := (Is.add hs hv).trans hz1
    have hxz : x ≤ z := rnd_lower hs hz1 (by linarith)
    have hvz : v ≤ z := rnd_lower hv hz1 (by linarith)
    obtain ⟨y, hy1, hy2, hy3⟩ := foldl_nonneg hS1 hS2 l (s + a) (k + 1) z hsa (hx0.trans hxz) hz2 (fun b hb => h b (by simp [hb])) (by omega)
    refine ⟨y, hy1, hxz.trans hy2, ?_⟩
    intro b hb u hu
    rcases List.mem_cons.mp hb with rfl | hb
    · have : u = v := by
        have := hu.symm.trans hv
        cases this; rfl
      rw [this]; exact hvz.trans hy2
    · exact hy3 b hb u hu

/-- The energy of an ordinary signal. -/
theorem energy_bounds {s : List F} (hs : ∀ a ∈ s, Pw 1 a) (hl : s.length ≤ 2 ^ 31) :
    ∃ E, Is (Flt.iterSum (s.map fun x => x * x)) E ∧ 0 ≤ E ∧ E ≤ 2 ^ 35 ∧
      ∀ a ∈ s, ∀ v, Is a v → 1 / 2 ^ 40 ≤ |v| → 1 / 2 ^ 81 ≤ E := by
  have hsq : ∀ a ∈ s.map (fun x => x * x), ∃ v, Is a v ∧ 0 ≤ v ∧ |v| ≤ 2 ^ 3 := by
    intro a ha
    obtain ⟨b, hb, rfl⟩ := List.mem_map.mp ha
    obtain ⟨x, hx1, hx2⟩ := hs b hb
    exact sq_nonneg' hx1 hx2 (by norm_num)
  obtain ⟨E, hE, hE0, hE1⟩ := foldl_nonneg (F := F) (S := 2 ^ 3) (by norm_num) (two_pow_mono (by norm_num)) (s.map fun x => x * x) (0.0 : F) 0 0
    val_0 le_rfl (by simp [grow]) hsq (by rw [List.length_map]; omega)
  obtain ⟨E', hE', hb⟩ := Pw.iterSum (F := F) (n := 3) (k := 31) (l := s.map fun x => x * x)
    (fun a ha => by obtain ⟨v, h1, _, h3⟩ := hsq a ha; exact ⟨v, h1, h3⟩) (by rw [List.length_map]; exact hl) (by norm_num) (by norm_num)
  have : E' = E := by
    have h := hE'.symm.trans hE
    cases h; rfl
  subst this
  refine ⟨E', hE', hE0, (le_abs_self _).trans hb, ?_⟩
  intro a ha v hv hv1
  obtain ⟨x, hx1, hx2⟩ := hs a ha
  have hvx : v = x := by
    have h := hv.symm.trans hx1
    cases h; rfl
  subst hvx
  have hvv : (1 : ℝ) / 2 ^ 80 ≤ v * v := by
    have h2 : (1 / 2 ^ 40 : ℝ) * (1 / 2 ^ 40) ≤ |v| * |v| := mul_le_mul hv1 hv1 (by positivity) (abs_nonneg _)
    rw [abs_mul_abs_self] at h2
    refine le_trans (le_of_eq ?_) h2
    norm_num
  have hvu : v * v ≤ 2 ^ 2 := by
    have h2 : |v| * |v| ≤ 2 ^ 1 * 2 ^ 1 := mul_le_mul hx2 hx2 (abs_nonneg _) (by norm_num)
    rw [abs_mul_abs_self] at h2
    refine h2.trans (by norm_num)
  obtain ⟨w, hw, hw1, _⟩ := Btw.of_rnd (F := F) (Is.mul hv hv) hvv hvu (by norm_num) (by norm_num)
  exact hw1.trans (hE1 _ (List.mem_map.mpr ⟨a, ha, rfl⟩) w hw)

/-- The ratio of the pressure to the reference pressure: zero, or of known order of magnitude. -/
theorem pressure_bounds {s : List F} (hs : ∀ a ∈ s, Pw 1 a) (hl : s.length ≤ 2 ^ 31) (hne : s ≠ []) :
    ∃ Q, Is (Flt.sqrt (Flt.iterSum (s.map fun x => x * x) / Flt.ofNat s.length) / 0.00002 : F) Q ∧ Q ≤ 2 ^ 37 ∧
      (Q = 0 ∨ 1 / 2 ^ 540 ≤ Q) ∧ ∀ a ∈ s, ∀ v, Is a v → 1 / 2 ^ 40 ≤ |v| → 1 / 2 ^ 45 ≤ Q := by
  obtain ⟨E, hE, hE0, hEu, hEl⟩ := energy_bounds hs hl
  have hl1 : 1 ≤ s.length := List.length_pos_iff.mpr hne
  have hL : Is (Flt.ofNat s.length : F) s.length := val_nat (hl.trans (by norm_num))
  have hl1' : (1 : ℝ) ≤ s.length := by exact_mod_cast hl1
  have hl2' : (s.length : ℝ) ≤ 2 ^ 31 := by exact_mod_cast hl
  have hl0 : (0 : ℝ) < s.length := by linarith
  generalize Flt.iterSum (s.map fun x => x * x) = en at *
  have hM := Is.div hE hL hl0.ne'
  have hdivu : E / s.length ≤ 2 ^ 35 := (div_le_self hE0 hl1').trans hEu
  have hdiv0 : 0 ≤ E / s.length := by positivity
  obtain ⟨M, hM', hMb⟩ := Pw.of_rnd (n := 35) hM (by rw [abs_of_nonneg hdiv0]; exact hdivu) (by norm_num)
  have hM0 : 0 ≤ M := rnd_nonneg (hM.symm.trans hM') hdiv0
  have hMu : M ≤ 2 ^ 36 := (le_abs_self _).trans hMb
  obtain ⟨c, hc, hce⟩ := lit_near (F := F) (m := 2) (e := 5) (x := 1 / 50000) (by norm_num) (by norm_num) (by norm_num)
  have hc1 := (abs_le.mp hce).1
  have hc2 := (abs_le.mp hce).2
  norm_num at hc1 hc2
  have c1 : 1 / 2 ^ 17 ≤ c := by norm_num; linarith
  have c2 : c ≤ 1 / 2 ^ 15 := by norm_num; linarith
  have hc0 : 0 < c := by linarith [show (0 : ℝ) < 1 / 2 ^ 17 by positivity]
  have hcI : Is (0.00002 : F) c := hc
  -- from the mean energy to the ratio
  have key : ∀ lo : ℕ, lo ≤ 600 → 15 ≤ lo → 1 / 2 ^ (2 * lo) ≤ M → Btw (lo - 13) 37 (Flt.sqrt (en / Flt.ofNat s.length) / 0.00002 : F) := by
    intro lo hlo h15 hMl
    obtain ⟨P, hP, hP1, hP2⟩ := Btw.sqrt (hi := 18) hM' hMl (hMu.trans (by norm_num)) (by omega) (by norm_num)
    have hP0 : 0 < P := lt_of_lt_of_le (by positivity) hP1
    have := Btw.of_rnd (F := F) (lo := lo - 14) (hi := 36) (Is.div hP hcI hc0.ne') ?_ ?_ (by omega) (by norm_num)
    · obtain ⟨x, a, b, d⟩ := this
      exact ⟨x, a, by rw [show lo - 13 = lo - 14 + 1 by omega]; exact b, d⟩
    · rw [le_div_iff₀ hc0]
      calc 1 / 2 ^ (lo - 14) * c ≤ 1 / 2 ^ (lo - 14) * (1 / 2 ^ 15) := mul_le_mul_of_nonneg_left c2 (by positivity)
        _ = 1 / 2 ^ (lo + 1) := by rw [one_div_mul_one_div, ← pow_add]; congr 2; omega
        _ ≤ P := hP1
    · rw [div_le_iff₀ hc0]
      calc P ≤ 2 ^ 19 := hP2
        _ = 2 ^ 36 * (1 / 2 ^ 17) := by norm_num
        _ ≤ 2 ^ 36 * c := mul_le_mul_of_nonneg_left c1 (by positivity)
  by_cases hz : M = 0
  · subst hz
    have hP : Is (Flt.sqrt (en / Flt.ofNat s.length)) (0 : ℝ) := by
      show val _ = _
      rw [hM'.sqrt le_rfl, Real.sqrt_zero, rnd_zero]
    have hQ : Is (Flt.sqrt (en / Flt.ofNat s.length) / 0.00002 : F) 0 := by
      show val _ = _
      rw [hP.div hcI hc0.ne', zero_div, rnd_zero]
    refine ⟨0, hQ, by positivity, .inl rfl, ?_⟩
    intro a ha v hv hv1
    exfalso
    have h1 := hEl a ha v hv hv1
    have h2 : (1 : ℝ) / 2 ^ 112 ≤ E / s.length := by
      rw [le_div_iff₀ hl0]
      calc (1 : ℝ) / 2 ^ 112 * s.length ≤ 1 / 2 ^ 112 * 2 ^ 31 := mul_le_mul_of_nonneg_left hl2' (by positivity)
        _ = 1 / 2 ^ 81 := by norm_num
        _ ≤ E := h1
    obtain ⟨x, hx, hx1, _⟩ := Btw.of_rnd (F := F) hM h2 hdivu (by norm_num) (by norm_num)
    have h3 := hx.symm.trans hM'
    cases h3
    have : (0 : ℝ) < 1 / 2 ^ (112 + 1) := by positivity
    linarith
  · have hrange : 1 / 2 ^ (2 * 537) ≤ M := by
      rcases range _ _ hM' with h | ⟨h, _⟩
      · exact absurd h hz
      · rw [abs_of_nonneg hM0] at h
        exact h
    obtain ⟨Q, hQ, hQ1, hQ2⟩ := key 537 (by norm_num) (by norm_num) hrange
    refine ⟨Q, hQ, hQ2, .inr ((div_le_div_of_nonneg_left (by norm_num) (by positivity) (two_pow_mono (by norm_num))).trans hQ1), ?_⟩
    intro a ha v hv hv1
    have h1 := hEl a ha v hv hv1
    have h2 : (1 : ℝ) / 2 ^ 112 ≤ E / s.length := by
      rw [le_div_iff₀ hl0]
      calc (1 : ℝ) / 2 ^ 112 * s.length ≤ 1 / 2 ^ 112 * 2 ^ 31 := mul_le_mul_of_nonneg_left hl2' (by positivity)
        _ = 1 / 2 ^ 81 := by norm_num
        _ ≤ E := h1
    obtain ⟨x, hx, hx1, _⟩ := Btw.of_rnd (F := F) hM h2 hdivu (by norm_num) (by norm_num)
    have h3 := hx.symm.trans hM'
    cases h3
    obtain ⟨Q', hQ', hQ1', _⟩ := key 57 (by norm_num) (by norm_num) ((div_le_div_of_nonneg_left (by norm_num) (by positivity)
      (two_pow_mono (by norm_num))).trans hx1)
    have h4 := hQ'.symm.trans hQ
    cases h4
    exact (div_le_div_of_nonneg_left (by norm_num) (by positivity) (two_pow_mono (by norm_num))).trans hQ1'

theorem logb_bounds {Q : ℝ} {a b : ℕ} (h1 : (1 : ℝ) / 10 ^ a ≤ Q) (h2 : Q ≤ 10 ^ b) : -(a : ℝ) ≤ Real.logb 10 Q ∧ Real.logb 10 Q ≤ b := by
  have hQ : 0 < Q := lt_of_lt_of_le (by positivity) h1
  constructor
  · rw [Real.le_logb_iff_rpow_le (by norm_num) hQ, Real.rpow_neg (by norm_num), Real.rpow_natCast, ← one_div]
    exact h1
  · rw [Real.logb_le_iff_le_rpow (by norm_num) hQ, Real.rpow_natCast]
    exact h2

set_option exponentiation.threshold 2000 in
/-- The level of a signal: minus infinity, or a number. -/
theorem spl_bounds {s : List F} (hs : ∀ a ∈ s, Pw 1 a) (hl : s.length ≤ 2 ^ 31) (hne : s ≠ []) :
    (val (soundPressureLevel s) = .inf true ∧ ∀ a ∈ s, ∀ v, Is a v → ¬ 1 / 2 ^ 40 ≤ |v|) ∨
    ∃ L, Is (soundPressureLevel s) L ∧ -3300 ≤ L ∧ L ≤ 261 ∧ ∀ a ∈ s, ∀ v, Is a v → 1 / 2 ^ 40 ≤ |v| → -301 ≤ L := by
  obtain ⟨Q, hQ, hQu, hQl, hQa⟩ := pressure_bounds hs hl hne
  have key : ∀ a b : ℕ, a ≤ 163 → b ≤ 12 → (1 : ℝ) / 10 ^ a ≤ Q → Q ≤ 10 ^ b → ∃ L, Is (soundPressureLevel s) L ∧
      -(20 * (a + 1) + 1 : ℝ) ≤ L ∧ L ≤ 20 * (b + 1) + 1 := by
    intro a b ha hb h1 h2
    have hQ0 : 0 < Q := lt_of_lt_of_le (by positivity) h1
    obtain ⟨y, hy, hye⟩ := log10_pos _ _ hQ hQ0
    obtain ⟨l1, l2⟩ := logb_bounds h1 h2
    have y1 := (abs_le.mp hye).1
    have y2 := (abs_le.mp hye).2
    have ha' : (a : ℝ) ≤ 163 := by exact_mod_cast ha
    have hb' : (b : ℝ) ≤ 12 := by exact_mod_cast hb
    have hmul := Is.mul (val_20 (F := F)) hy
    obtain ⟨L, hL, he⟩ := rnd_err F (x := 20 * y) (B := 2 ^ 13) (by
      rw [abs_le]; norm_num; constructor <;> linarith [Nat.cast_nonneg (α := ℝ) a, Nat.cast_nonneg (α := ℝ) b]) (by norm_num) (two_pow_mono (by norm_num))
    have e1 := (abs_le.mp he).1
    have e2 := (abs_le.mp he).2
    norm_num at e1 e2
    refine ⟨L, hmul.trans hL, ?_, ?_⟩ <;> linarith
  have h37 : (2 : ℝ) ^ 37 ≤ 10 ^ 12 := by norm_num
  rcases hQl with hz | hlow
  · left
    subst hz
    constructor
    · unfold soundPressureLevel
      dsimp only
      rw [val_mul, log10_zero _ hQ, val_20]
      show (if (20 : ℝ) = 0 then _ else _) = _
      rw [if_neg (by norm_num)]
      simp
    · intro a ha v hv hc
      have := hQa a ha v hv hc
      have : (0 : ℝ) < 1 / 2 ^ 45 := by positivity
      linarith
  · right
    have h540 : (1 : ℝ) / 10 ^ 163 ≤ 1 / 2 ^ 540 := by
      apply div_le_div_of_nonneg_left (by norm_num) (by positivity)
      norm_num
    obtain ⟨L, hL, L1, L2⟩ := key 163 12 le_rfl le_rfl (h540.trans hlow) (hQu.trans h37)
    refine ⟨L, hL, by norm_num at L1; linarith, by norm_num at L2; linarith, ?_⟩
    intro a ha v hv hc
    have h45 : (1 : ℝ) / 10 ^ 14 ≤ 1 / 2 ^ 45 := by norm_num
    obtain ⟨L', hL', L1', _⟩ := key 14 12 (by norm_num) le_rfl (h45.trans (hQa a ha v hv hc)) (hQu.trans h37)
    have h3 := hL'.symm.trans hL
    cases h3
    norm_num at L1'
    linarith

set_option exponentiation.threshold 2000 in
/-- Level matching of ordinary signals: the scaled samples are of ordinary size. -/
theorem scale_pw {ref deg : AudioSignal F} (hr : ∀ a ∈ ref.data, Pw 1 a) (hd : ∀ a ∈ deg.data, Pw 1 a) (hrl : ref.data.length ≤ 2 ^ 31)
    (hdl : deg.data.length ≤ 2 ^ 31) (hrn : ref.data ≠ []) (hloud : ∃ a ∈ deg.data, ∃ v, Is a v ∧ 1 / 2 ^ 40 ≤ |v|) :
    ∀ a ∈ (scaleToMatchSpl ref deg).data, Pw 100 a := by
  obtain ⟨b, hb, v, hv, hv1⟩ := hloud
  have hdn : deg.data ≠ [] := List.ne_nil_of_mem hb
  have hfac : Pw 98 (Flt.powf 10.0 ((soundPressureLevel ref.data - soundPressureLevel deg.data) / 20.0) : F) := by
    rcases spl_bounds hd hdl hdn with ⟨_, hsil⟩ | ⟨Ld, hLd, _, hLdu, hLdl⟩
    · exact absurd hv1 (hsil b hb v hv)
    have hd1 := hLdl b hb v hv hv1
    rcases spl_bounds hr hrl hrn with ⟨hinf, _⟩ | ⟨Lr, hLr, hLrl, hLru, _⟩
    · have hsub : val (soundPressureLevel ref.data - soundPressureLevel deg.data) = .inf true := by
        rw [val_sub, hinf, hLd]; rfl
      have hdiv := inf_div _ _ _ _ hsub (val_20 (F := F)) (by norm_num)
      have := powf_inf _ _ _ _ (val_10 (F := F)) (by norm_num) hdiv
      exact ⟨0, this, by rw [abs_zero]; positivity⟩
    · have hsub := Is.sub hLr hLd
      obtain ⟨d, hd', he⟩ := rnd_err F (x := Lr - Ld) (B := 2 ^ 13) (by rw [abs_le]; norm_num; constructor <;> linarith) (by norm_num)
        (two_pow_mono (by norm_num))
      have hdiv := Is.div (show Is (soundPressureLevel ref.data - soundPressureLevel deg.data) d from hsub.trans hd') (val_20 (F := F)) (by norm_num)
      have e1 := (abs_le.mp he).1
      have e2 := (abs_le.mp he).2
      norm_num at e1 e2
      obtain ⟨e, he', hee⟩ := rnd_err F (x := d / 20) (B := 2 ^ 13) (by rw [abs_le]; norm_num; constructor <;> linarith) (by norm_num)
        (two_pow_mono (by norm_num))
      have f1 := (abs_le.mp hee).1
      have f2 := (abs_le.mp hee).2
      norm_num at f1 f2
      have elo : (-180 : ℝ) ≤ e := by linarith
      have ehi : e ≤ 29 := by linarith
      have p1 : (10 : ℝ) ^ e ≤ 10 ^ 29 := by
        rw [← Real.rpow_natCast]
        exact Real.rpow_le_rpow_of_exponent_le (by norm_num) (by exact_mod_cast ehi)
      have p2 : (1 : ℝ) / 2 ^ 900 ≤ 10 ^ e := by
        have : (10 : ℝ) ^ (-(180 : ℕ) : ℝ) ≤ 10 ^ e := Real.rpow_le_rpow_of_exponent_le (by norm_num) (by push_cast; exact elo)
        rw [Real.rpow_neg (by norm_num), Real.rpow_natCast, ← one_div] at this
        refine le_trans (div_le_div_of_nonneg_left (by norm_num) (by positivity) ?_) this
        calc (10 : ℝ) ^ 180 ≤ 2 ^ 600 := by norm_num
          _ ≤ 2 ^ 900 := two_pow_mono (by norm_num)
      obtain ⟨z, hz, hz1, hz2⟩ := powf_pos _ _ _ _ (val_10 (F := F)) (hdiv.trans he') (by norm_num) p2
        (p1.trans (by
          calc (10 : ℝ) ^ 29 ≤ 2 ^ 100 := by norm_num
            _ ≤ 2 ^ 900 := two_pow_mono (by norm_num)))
      have hz0 : 0 ≤ z := le_trans (by positivity) hz1
      refine ⟨z, hz, ?_⟩
      rw [abs_of_nonneg hz0]
      clear p2
      refine hz2.trans ?_
      norm_num at p1 ⊢
      linarith
  intro a ha
  obtain ⟨x, hx, rfl⟩ := List.mem_map.mp ha
  exact ((hd x hx).mul hfac (by norm_num)).mono (by norm_num)

end Visqol
