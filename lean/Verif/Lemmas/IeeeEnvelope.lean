import Verif.Lemmas.IeeeHilbert

/-! # Floating point: the envelope is accurate in the Euclidean norm -/

set_option linter.unusedSectionVars false

namespace Visqol
open Ieee
open Finset (range)

variable {F : Type} [Flt F] [Ieee F] [Libm F]

theorem list_sum_abs_le {xs : List ℝ} {B : ℝ} (h : ∀ x ∈ xs, |x| ≤ B) : |xs.sum| ≤ xs.length * B := by
  induction xs with
  | nil => simp
  | cons a l ih =>
    rw [List.sum_cons, List.length_cons]
    push_cast
    have := ih (fun x hx => h x (List.mem_cons_of_mem _ hx))
    have := h a List.mem_cons_self
    exact (abs_add_le _ _).trans (by linarith)

theorem len_small {n : ℝ} (h : n ≤ 2 ^ 24) : (2 * n + 3) / 2 ^ 50 ≤ 1 / 2 ^ 20 := by
  norm_num at h ⊢
  linarith

/-- The computed mean of an ordinary signal. -/
theorem env_mean_near {s : List F} {xs : List ℝ} (hv : Vals s xs) (hb : ∀ x ∈ xs, |x| ≤ 2) (h1 : 1 ≤ s.length) (h2 : s.length ≤ 2 ^ 24) :
    ∃ μ, Is (Flt.sum s / Flt.ofNat s.length : F) μ ∧ |μ - mean xs| ≤ (2 * s.length + 1) / 2 ^ 50 ∧ |mean xs| ≤ 2 := by
  obtain ⟨S, hS, hSe⟩ := Libm.sum_acc s xs 2 hv (by norm_num) (by
    calc (2 : ℝ) = 2 ^ 1 := by norm_num
      _ ≤ 2 ^ 900 := two_pow_mono (by norm_num)) hb (h2.trans (by norm_num))
  have hlen := hv.length
  have hn1 : (1 : ℝ) ≤ s.length := by exact_mod_cast h1
  have hn2 : (s.length : ℝ) ≤ 2 ^ 24 := by exact_mod_cast h2
  have hsum := list_sum_abs_le hb
  rw [← hlen] at hsum
  have hmean : mean xs = xs.sum / s.length := by unfold mean; rw [hlen]
  have hm2 : |mean xs| ≤ 2 := by
    rw [hmean, abs_div, abs_of_nonneg (by linarith : (0 : ℝ) ≤ s.length), div_le_iff₀ (by linarith)]
    linarith
  generalize hn : (s.length : ℝ) = n at *
  have hq : |S / n - mean xs| ≤ 2 * n / 2 ^ 50 := by
    rw [hmean, ← sub_div, abs_div, abs_of_nonneg (by linarith : 0 ≤ n), div_le_iff₀ (by linarith)]
    refine hSe.trans (le_of_eq ?_)
    ring
  have hq3 : |S / n| ≤ 3 := by
    have := abs_add_le (S / n - mean xs) (mean xs)
    rw [sub_add_cancel] at this
    have : 2 * n / 2 ^ 50 ≤ 1 := by
      rw [div_le_one (by positivity)]
      norm_num at hn2 ⊢
      linarith
    linarith
  obtain ⟨μ, hμ, hμe⟩ := rnd_tau F (x := S / n) (hq3.trans (by norm_num))
  refine ⟨μ, ?_, ?_, hm2⟩
  · show val _ = _
    rw [Is.div (show Is _ _ from hS) (val_nat (h2.trans (by norm_num)) : Is (Flt.ofNat s.length : F) s.length) (by rw [hn]; linarith), hn]
    exact hμ
  · have g := abs_add_le (μ - S / n) (S / n - mean xs)
    rw [sub_add_sub_cancel] at g
    have ht := tau_le
    have g3 : |S / n| / 2 ^ 52 ≤ 3 / 2 ^ 52 := div_le_div_of_nonneg_right hq3 (by positivity)
    rw [add_div]
    generalize |S / n| / 2 ^ 52 = q at *
    have g4 : 3 / 2 ^ 52 + 1 / 2 ^ 200 ≤ (1 : ℝ) / 2 ^ 50 := by norm_num
    generalize (1 : ℝ) / 2 ^ 200 = w at *
    linarith only [g, g3, g4, hμe, hq, ht]

/-- One value of the envelope from one value of the weighted inverse transform. -/
theorem env_cell {u μ : ℝ} {a mu : F} (ha : Is a u) (hu : |u| ≤ 2 ^ 30) (hmu : Is mu μ) (hm : |μ| ≤ 3) :
    ∃ e, Is ((((Cpx.ofRe a).smul 2.0).ssub (0.000001 : F)).norm + mu) e ∧
      |e - (|2 * u - 1 / 1000000| + μ)| ≤ 4 / 2 ^ 40 * |u| + 4 / 2 ^ 40 := by
  have ht := tau_le
  have ht0 := tau_pos
  obtain ⟨v, hv, hve⟩ := rnd_tau F (x := u * 2) (by
    rw [abs_mul, abs_two]
    calc |u| * 2 ≤ 2 ^ 30 * 2 := by linarith
      _ ≤ 2 ^ 200 := by norm_num)
  obtain ⟨c, hc, hce⟩ := lit_near (F := F) (m := 1) (e := 6) (x := 1 / 1000000) (by norm_num) (by norm_num) (by norm_num)
  have hva : Is (a * 2.0 : F) v := by show val _ = _; rw [ha.mul val_2]; exact hv
  have him : Is ((0.0 : F) * 2.0) 0 := by
    show val _ = _
    rw [Is.mul (val_0 : Is (0.0 : F) 0) val_2, zero_mul, rnd_zero]
  rw [abs_mul, abs_two] at hve
  have hU := abs_nonneg u
  have ew : ((1 : ℝ) / 2 ^ 200) ≤ 1 / 2 ^ 100 := by norm_num
  have hc1 : |c| ≤ 1 := by
    have := abs_add_le (c - 1 / 1000000) (1 / 1000000)
    rw [sub_add_cancel] at this
    have h2 : |(1 : ℝ) / 1000000| = 1 / 1000000 := abs_of_nonneg (by norm_num)
    rw [h2] at this
    norm_num at hce ⊢
    linarith
  have hv1 : |v - 2 * u| ≤ |u| / 2 ^ 51 + tau := by
    rw [mul_comm 2 u]
    refine hve.trans (le_of_eq ?_)
    ring
  have hvb : |v| ≤ 3 * |u| + 1 := by
    have := abs_add_le (v - 2 * u) (2 * u)
    rw [sub_add_cancel, abs_mul, abs_two] at this
    have h3 : |u| / 2 ^ 51 ≤ |u| := div_le_self hU (one_le_pow₀ (by norm_num))
    have : (1 : ℝ) / 2 ^ 100 ≤ 1 := by norm_num
    linarith
  have hvc : |v - c| ≤ 3 * |u| + 2 := (abs_sub _ _).trans (by linarith)
  obtain ⟨b, hb, hbe⟩ := rnd_tau F (x := v - c) (hvc.trans (by
    calc 3 * |u| + 2 ≤ 3 * 2 ^ 30 + 2 := by linarith
      _ ≤ 2 ^ 200 := by norm_num))
  have hbI : Is (a * 2.0 - (0.000001 : F)) b := by show val _ = _; rw [hva.sub (show Is _ _ from hc)]; exact hb
  have hb1 : |b - (2 * u - 1 / 1000000)| ≤ 8 * (|u| + 1) / 2 ^ 52 := by
    have g1 : b - (2 * u - 1 / 1000000) = (b - (v - c)) + (v - 2 * u) - (c - 1 / 1000000) := by ring
    rw [g1]
    have g2 := abs_sub ((b - (v - c)) + (v - 2 * u)) (c - 1 / 1000000)
    have g3 := abs_add_le (b - (v - c)) (v - 2 * u)
    have g4 : |v - c| / 2 ^ 52 ≤ (3 * |u| + 2) / 2 ^ 52 := div_le_div_of_nonneg_right hvc (by positivity)
    generalize |v - c| = q1 at *
    generalize |u| = U at *
    norm_num at *
    linarith
  have hbb : |b| ≤ 3 * |u| + 2 := by
    have g1 := abs_add_le (b - (2 * u - 1 / 1000000)) (2 * u - 1 / 1000000)
    rw [sub_add_cancel] at g1
    have g2 := abs_sub (2 * u) (1 / 1000000)
    rw [abs_mul, abs_two] at g2
    have h2 : |(1 : ℝ) / 1000000| = 1 / 1000000 := abs_of_nonneg (by norm_num)
    rw [h2] at g2
    have g3 : 8 * (|u| + 1) / 2 ^ 52 ≤ 1 / 2 * (|u| + 1) := by
      norm_num
      linarith
    linarith
  obtain ⟨z, hz, hze⟩ := Libm.hypot_acc _ _ b 0 hbI him (hbb.trans (by
    calc 3 * |u| + 2 ≤ 3 * 2 ^ 30 + 2 := by linarith
      _ ≤ 2 ^ 40 := by norm_num
      _ ≤ 2 ^ 900 := two_pow_mono (by norm_num))) (by rw [abs_zero]; positivity)
  have esq : Real.sqrt (b ^ 2 + 0 ^ 2) = |b| := by
    rw [show (0 : ℝ) ^ 2 = 0 by norm_num, add_zero, Real.sqrt_sq_eq_abs]
  rw [esq] at hze
  have hz1 : |z - abs b| ≤ |b| / 2 ^ 40 + 1 / 2 ^ 100 :=
    hze.trans (add_le_add le_rfl (one_div_le_one_div_of_le (by positivity) (two_pow_mono (by norm_num))))
  clear hze
  have hzb : |z| ≤ 4 * |u| + 3 := by
    have g1 := abs_add_le (z - |b|) |b|
    rw [sub_add_cancel, abs_abs] at g1
    have g2 : |b| / 2 ^ 40 ≤ (3 * |u| + 2) / 2 ^ 40 := div_le_div_of_nonneg_right hbb (by positivity)
    have g3 : (3 * |u| + 2) / 2 ^ 40 + 1 / 2 ^ 100 ≤ |u| + 1 := by
      norm_num; linarith
    linarith
  have hzm : |z + μ| ≤ 4 * |u| + 6 := (abs_add_le _ _).trans (by linarith)
  obtain ⟨e, he, hee⟩ := rnd_tau F (x := z + μ) (hzm.trans (by
    calc 4 * |u| + 6 ≤ 4 * 2 ^ 30 + 6 := by linarith
      _ ≤ 2 ^ 200 := by norm_num))
  refine ⟨e, ?_, ?_⟩
  · show val _ = _
    have hz' : Is (((((Cpx.ofRe a).smul 2.0).ssub (0.000001 : F))).norm) z := hz
    rw [hz'.add hmu]; exact he
  · have g1 : |e - (|2 * u - 1 / 1000000| + μ)| ≤ |e - (z + μ)| + |z - abs b| + |abs b - abs (2 * u - 1 / 1000000)| := by
      have e1 : e - (|2 * u - 1 / 1000000| + μ) = (e - (z + μ)) + (z - |b|) + (|b| - |2 * u - 1 / 1000000|) := by ring
      rw [e1]
      exact (abs_add_le _ _).trans (add_le_add (abs_add_le _ _) le_rfl)
    have g2 := abs_abs_sub_abs_le b (2 * u - 1 / 1000000)
    have g3 : |z + μ| / 2 ^ 52 ≤ (4 * |u| + 6) / 2 ^ 52 := div_le_div_of_nonneg_right hzm (by positivity)
    have g4 : |b| / 2 ^ 40 ≤ (3 * |u| + 2) / 2 ^ 40 := div_le_div_of_nonneg_right hbb (by positivity)
    have g5 := g2.trans hb1
    clear g2 hb1 hbe hce hve hv1
    generalize |z + μ| / 2 ^ 52 = q1 at *
    generalize |b| / 2 ^ 40 = q2 at *
    generalize |abs b - abs (2 * u - 1 / 1000000)| = q3 at *
    generalize |z - abs b| = q4 at *
    generalize |e - (z + μ)| = q5 at *
    generalize |e - (|2 * u - 1 / 1000000| + μ)| = q6 at *
    generalize |u| = U at *
    have h6 : (4 * U + 6) / 2 ^ 52 + tau + ((3 * U + 2) / 2 ^ 40 + 1 / 2 ^ 100) + 8 * (U + 1) / 2 ^ 52 ≤ 4 / 2 ^ 40 * U + 4 / 2 ^ 40 := by
      have h7 : tau ≤ 1 / 2 ^ 100 := ht.trans ew
      norm_num at h7 ⊢
      linarith
    linarith only [g1, g3, g4, g5, hee, hz1, h6]

variable [RustFft F] [AccurateFft F]

/-- The computed envelope of an ordinary signal is close to the exact envelope, in the Euclidean norm. -/
theorem envelope_acc {p : Profile} {s : List F} {xs : List ℝ} (hv : Vals s xs) (hb : ∀ x ∈ xs, |x| ≤ 2) (h2 : 2 ≤ s.length)
    (h24 : s.length ≤ 2 ^ 24) :
    ∃ r env es, nextPowTwo p s.length = .ok r ∧ calculateUpperEnv p s = .ok (some env) ∧ Vals env es ∧ env.length = s.length ∧
      nrm s.length (fun t => seqC es t - seqC (Spec.envelope xs (max r 32)) t) ≤ Real.sqrt s.length * (1 / 2 ^ 32 + s.length / 2 ^ 46) := by
  have hne : s ≠ [] := by intro h; subst h; simp at h2
  have hlen := hv.length
  obtain ⟨r, hr, hr2, hr3⟩ := C41_next_pow_two_bounds p s.length (by omega) (h24.trans (by norm_num))
  have hr24 := hr3 24 h24
  have hodd : max r 32 % 2 = 1 → s.length % 2 = 1 := by
    intro h
    by_contra hc
    obtain ⟨r', h3, h4⟩ := C41_even p s.length (by omega) (h24.trans (by norm_num)) (by omega)
    rw [hr] at h3
    cases h3
    omega
  have h32 : 32 ≤ max r 32 := le_max_right _ _
  have hsN : s.length ≤ max r 32 := by omega
  have hN24 : max r 32 ≤ 2 ^ 24 := by omega
  obtain ⟨μ, hμ, hμe, hm2⟩ := env_mean_near hv hb (by omega) h24
  have hn1 : (1 : ℝ) ≤ s.length := by exact_mod_cast (by omega : 1 ≤ s.length)
  have hn24 : (s.length : ℝ) ≤ 2 ^ 24 := by exact_mod_cast h24
  have hδ0 := len_small hn24
  have hδ1 : (2 * (s.length : ℝ) + 1) / 2 ^ 50 ≤ 1 := by
    have e : (2 * (s.length : ℝ) + 3) / 2 ^ 50 = (2 * s.length + 1) / 2 ^ 50 + 2 / 2 ^ 50 := by ring
    rw [e] at hδ0
    have : (1 : ℝ) / 2 ^ 20 - 2 / 2 ^ 50 ≤ 1 := by norm_num
    linarith
  have hμ3 : |μ| ≤ 3 := by
    have := abs_add_le (μ - mean xs) (mean xs)
    rw [sub_add_cancel] at this
    linarith
  unfold calculateUpperEnv meanOpt
  rw [if_neg hne]
  dsimp only
  generalize (Flt.sum s / Flt.ofNat s.length : F) = mu at *
  -- centred samples
  have hcell : ∀ x : ℝ, |x| ≤ 2 → ∃ y, rnd F (x - μ) = .fin y ∧ |y - (x - mean xs)| ≤ (2 * s.length + 3) / 2 ^ 50 ∧ |y| ≤ 5 := by
    intro x hx
    have g1 : |x - μ| ≤ 5 := (abs_sub _ _).trans (by linarith)
    obtain ⟨y, hy, hye⟩ := rnd_tau F (x := x - μ) (g1.trans (by norm_num))
    have g3 : |x - μ| / 2 ^ 52 ≤ 5 / 2 ^ 52 := div_le_div_of_nonneg_right g1 (by positivity)
    have g4 : |y - (x - mean xs)| ≤ (2 * s.length + 3) / 2 ^ 50 := by
      have e1 : y - (x - mean xs) = (y - (x - μ)) - (μ - mean xs) := by ring
      rw [e1]
      have g2 := abs_sub (y - (x - μ)) (μ - mean xs)
      have ht := tau_le
      have e2 : (2 * (s.length : ℝ) + 3) / 2 ^ 50 = (2 * s.length + 1) / 2 ^ 50 + 2 / 2 ^ 50 := by ring
      rw [e2]
      have g6 : (5 : ℝ) / 2 ^ 52 + 1 / 2 ^ 200 ≤ 2 / 2 ^ 50 := by norm_num
      generalize (1 : ℝ) / 2 ^ 200 = w at *
      linarith only [g2, g3, g6, hye, ht, hμe]
    refine ⟨y, hy, g4, ?_⟩
    have ha : x - mean xs = x - mean xs := rfl
    have g7 : |x - mean xs| ≤ 4 := (abs_sub _ _).trans (by linarith)
    have g8 := abs_add_le (y - (x - mean xs)) (x - mean xs)
    rw [sub_add_cancel] at g8
    have g9 : (2 * (s.length : ℝ) + 3) / 2 ^ 50 ≤ 1 := hδ0.trans (by norm_num)
    linarith
  choose! f hf hfe hf5 using hcell
  have hget : ∀ t < s.length, xs.getD t 0 ∈ xs := by
    intro t ht
    rw [List.getD_eq_getElem?_getD, List.getElem?_eq_getElem (by omega), Option.getD_some]
    exact List.getElem_mem _
  have hyv : Vals (s.map (· - mu)) (xs.map f) := by
    refine Vals.of_get (by simpa using hlen) fun n hn => ?_
    have hn' : n < s.length := by simpa using hn
    rw [List.getElem_map]
    have hx := hv.get hn'
    have hm := hget n hn'
    rw [List.getD_eq_getElem?_getD, List.getElem?_eq_getElem (by omega), Option.getD_some] at hx hm
    rw [List.getD_eq_getElem?_getD, List.getElem?_map, List.getElem?_eq_getElem (by omega), Option.map_some, Option.getD_some]
    show val _ = _
    rw [hx.sub hμ]
    exact hf _ (hb _ hm)
  have hfget : ∀ t < s.length, (xs.map f).getD t 0 = f (xs.getD t 0) := by
    intro t ht
    simp [List.getD, List.getElem?_eq_getElem (show t < xs.length by omega)]
  have hyget : ∀ t < s.length, (xs.map (· - mean xs)).getD t 0 = xs.getD t 0 - mean xs := by
    intro t ht
    simp [List.getD, List.getElem?_eq_getElem (show t < xs.length by omega)]
  have hsn : 1 ≤ Real.sqrt s.length := Real.one_le_sqrt.mpr hn1
  have hpad : ∀ ys : List ℝ, ys.length = s.length → nrm (max r 32) (seqC ys) = nrm s.length (seqC ys) := fun ys hy =>
    nrm_zero_pad hsN fun n hn => seqC_beyond _ (by omega)
  have hA5 : nrm (max r 32) (seqC (xs.map f)) ≤ 5 * Real.sqrt s.length := by
    rw [hpad _ (by simp [hlen])]
    refine nrm_le_const (by norm_num) fun t ht => ?_
    rw [norm_seqC, hfget t ht]
    exact hf5 _ (hb _ (hget t ht))
  have hsb : Real.sqrt s.length ≤ 2 ^ 12 := by
    have : Real.sqrt s.length * Real.sqrt s.length = s.length := Real.mul_self_sqrt (Nat.cast_nonneg _)
    nlinarith
  unfold calculateHilbert FftManager.new
  rw [List.length_map, hr]
  simp only [ok_bind, forward1d_length]
  rw [hilbertScaling_eq (by omega) hsN (by omega)]
  simp only [ok_bind]
  obtain ⟨t, us, ht, htl, htv, hte⟩ := hilbert_acc (m := ⟨max r 32, s.length⟩) hyv (by simp) hsN (by show 1 ≤ max r 32; omega)
    (by show max r 32 ≤ 2 ^ 40; omega) (hA5.trans (by
      calc 5 * Real.sqrt s.length ≤ 5 * 2 ^ 12 := by linarith
        _ ≤ 2 ^ 100 := by norm_num))
  simp only [List.length_map] at ht htl hte
  rw [ht]
  simp only [ok_bind]
  -- distance of the transform from the exact one
  have hhd : nrm s.length (fun n => seqC us n - ((hilb s.length (max r 32) (seqC (xs.map (· - mean xs))) n : ℝ) : ℂ)) ≤
      Real.sqrt s.length * (48 / 2 ^ 40 + 2 * ((2 * s.length + 3) / 2 ^ 50)) := by
    refine (nrm_triangle _ (seqC us) (fun n => ((hilb s.length (max r 32) (seqC (xs.map f)) n : ℝ) : ℂ)) _).trans ?_
    have d2 : nrm s.length (fun n => ((hilb s.length (max r 32) (seqC (xs.map f)) n : ℝ) : ℂ)
        - ((hilb s.length (max r 32) (seqC (xs.map (· - mean xs))) n : ℝ) : ℂ)) ≤ 2 * ((2 * s.length + 3) / 2 ^ 50 * Real.sqrt s.length) := by
      refine (nrm_mono_len _ hsN).trans ((hilb_sub_le (by omega) _ _).trans ?_)
      refine mul_le_mul_of_nonneg_left ?_ (by norm_num)
      rw [nrm_zero_pad (M := s.length) hsN fun n hn => by rw [seqC_beyond _ (by simp; omega), seqC_beyond _ (by simp; omega), sub_zero]]
      refine nrm_le_const (by positivity) fun n hn => ?_
      unfold seqC
      rw [← Complex.ofReal_sub, Complex.norm_real, Real.norm_eq_abs, hfget n hn, hyget n hn]
      exact hfe _ (hb _ (hget n hn))
    refine (add_le_add hte d2).trans ?_
    have d3 : 8 * (nrm (max r 32) (seqC (xs.map f)) + 1) / 2 ^ 40 ≤ Real.sqrt s.length * (48 / 2 ^ 40) := by
      rw [mul_div_assoc', div_le_div_iff_of_pos_right (by positivity)]
      linarith
    have e : Real.sqrt s.length * (48 / 2 ^ 40 + 2 * ((2 * s.length + 3) / 2 ^ 50)) =
        Real.sqrt s.length * (48 / 2 ^ 40) + 2 * ((2 * s.length + 3) / 2 ^ 50 * Real.sqrt s.length) := by ring
    rw [e]
    exact add_le_add d3 le_rfl
  have hhn : nrm s.length (fun n => ((hilb s.length (max r 32) (seqC (xs.map (· - mean xs))) n : ℝ) : ℂ)) ≤ 8 * Real.sqrt s.length := by
    refine (nrm_mono_len _ hsN).trans ((hilb_le (by omega) _).trans ?_)
    have : nrm (max r 32) (seqC (xs.map (· - mean xs))) ≤ 4 * Real.sqrt s.length := by
      rw [hpad _ (by simp [hlen])]
      refine nrm_le_const (by norm_num) fun t ht => ?_
      rw [norm_seqC, hyget t ht]
      exact (abs_sub _ _).trans (by linarith [hb _ (hget t ht)])
    linarith
  have hδ2 : 48 / 2 ^ 40 + 2 * ((2 * (s.length : ℝ) + 3) / 2 ^ 50) ≤ 1 := by
    have : (48 : ℝ) / 2 ^ 40 + 2 * (1 / 2 ^ 20) ≤ 1 := by norm_num
    linarith
  have hun : nrm s.length (seqC us) ≤ 9 * Real.sqrt s.length := by
    have g := nrm_le_add_sub s.length (seqC us) (fun n => ((hilb s.length (max r 32) (seqC (xs.map (· - mean xs))) n : ℝ) : ℂ))
    have := mul_le_mul_of_nonneg_left hδ2 (by linarith : 0 ≤ Real.sqrt s.length)
    linarith
  have hus : us.length = s.length := by rw [← htv.length, htl]
  -- the envelope values
  have hec : ∀ n, ∃ e, ∀ hn : n < t.length, Is ((((Cpx.ofRe t[n]).smul 2.0).ssub (0.000001 : F)).norm + mu) e ∧
      |e - (|2 * us.getD n 0 - 1 / 1000000| + μ)| ≤ 4 / 2 ^ 40 * |us.getD n 0| + 4 / 2 ^ 40 := by
    intro n
    by_cases hn : n < t.length
    · have hu30 : |us.getD n 0| ≤ 2 ^ 30 := by
        rw [← norm_seqC]
        refine (le_nrm _ (show n < s.length by omega)).trans (hun.trans ?_)
        calc 9 * Real.sqrt s.length ≤ 9 * 2 ^ 12 := by linarith
          _ ≤ 2 ^ 30 := by norm_num
      obtain ⟨e, he⟩ := env_cell (htv.get hn) hu30 hμ hμ3
      exact ⟨e, fun _ => he⟩
    · exact ⟨0, fun h => absurd h hn⟩
  choose g hg using hec
  refine ⟨r, _, (List.range s.length).map g, rfl, rfl, ?_, by simp [htl], ?_⟩
  · refine Vals.of_get (by simp [htl]) fun n hn => ?_
    have hn' : n < t.length := by simpa using hn
    simp only [List.getElem_map]
    rw [List.getD_eq_getElem?_getD, List.getElem?_map, List.getElem?_range (by omega)]
    exact (hg n hn').1
  · have hyl : (xs.map (· - mean xs)).length = s.length := by simp [hlen]
    have hcellb : ∀ n < s.length, ‖seqC ((List.range s.length).map g) n - seqC (Spec.envelope xs (max r 32)) n‖ ≤
        4 / 2 ^ 40 * ‖seqC us n‖ + ((4 / 2 ^ 40 + (2 * s.length + 1) / 2 ^ 50) +
          2 * ‖seqC us n - ((hilb s.length (max r 32) (seqC (xs.map (· - mean xs))) n : ℝ) : ℂ)‖) := by
      intro n hn
      have e1 : seqC ((List.range s.length).map g) n = ((g n : ℝ) : ℂ) := by
        unfold seqC
        rw [List.getD_eq_getElem?_getD, List.getElem?_map, List.getElem?_range hn]; rfl
      have e2 : seqC (Spec.envelope xs (max r 32)) n =
          ((|2 * hilb s.length (max r 32) (seqC (xs.map (· - mean xs))) n - 1 / 1000000| + mean xs : ℝ) : ℂ) := by
        have e3 := hilb_eq (N := max r 32) (xs.map (· - mean xs)) (by rw [hyl]; exact hodd) (by omega) (by omega) (t := n) (by omega)
        rw [hyl] at e3
        rw [e3, hyget n hn]
        unfold seqC Spec.envelope
        rw [List.getD_eq_getElem?_getD, List.getElem?_map, List.getElem?_range (by omega)]
        simp only [Option.map_some, Option.getD_some, hlen]
      rw [e1, e2]
      unfold seqC
      rw [← Complex.ofReal_sub, ← Complex.ofReal_sub, Complex.norm_real, Complex.norm_real, Complex.norm_real]
      simp only [Real.norm_eq_abs]
      have hgn := (hg n (by omega)).2
      change |g n - _| ≤ 4 / 2 ^ 40 * |us.getD n 0| + (_ + 2 * |us.getD n 0 - _|)
      generalize hilb s.length (max r 32) (fun n => (((xs.map (· - mean xs)).getD n 0 : ℝ) : ℂ)) n = h at *
      have f1 : g n - (|2 * h - 1 / 1000000| + mean xs) = (g n - (|2 * us.getD n 0 - 1 / 1000000| + μ)) +
          (|2 * us.getD n 0 - 1 / 1000000| - |2 * h - 1 / 1000000|) + (μ - mean xs) := by ring
      have f2 : |abs (2 * us.getD n 0 - 1 / 1000000) - abs (2 * h - 1 / 1000000)| ≤ 2 * |us.getD n 0 - h| := by
        refine (abs_abs_sub_abs_le _ _).trans (le_of_eq ?_)
        rw [show 2 * us.getD n 0 - 1 / 1000000 - (2 * h - 1 / 1000000) = 2 * (us.getD n 0 - h) by ring, abs_mul, abs_two]
      rw [f1]
      refine (abs_add_le _ _).trans ((add_le_add (abs_add_le _ _) le_rfl).trans ?_)
      linarith only [hgn, f2, hμe]
    have k1 : nrm s.length (fun n => seqC ((List.range s.length).map g) n - seqC (Spec.envelope xs (max r 32)) n) ≤
        4 / 2 ^ 40 * nrm s.length (seqC us) + ((4 / 2 ^ 40 + (2 * s.length + 1) / 2 ^ 50) * Real.sqrt s.length +
          2 * nrm s.length (fun n => seqC us n - ((hilb s.length (max r 32) (seqC (xs.map (· - mean xs))) n : ℝ) : ℂ))) := by
      exact nrm_le_three (by positivity) (by norm_num) (by positivity) hcellb
    refine k1.trans ?_
    have j1 := mul_le_mul_of_nonneg_left hun (by positivity : (0 : ℝ) ≤ 4 / 2 ^ 40)
    have j2 := mul_le_mul_of_nonneg_left hhd (by norm_num : (0 : ℝ) ≤ 2)
    refine (add_le_add j1 (add_le_add le_rfl j2)).trans ?_
    generalize Real.sqrt (s.length : ℝ) = q at *
    have e : 4 / 2 ^ 40 * (9 * q) + ((4 / 2 ^ 40 + (2 * (s.length : ℝ) + 1) / 2 ^ 50) * q +
        2 * (q * (48 / 2 ^ 40 + 2 * ((2 * (s.length : ℝ) + 3) / 2 ^ 50)))) =
        q * (136 / 2 ^ 40 + 13 / 2 ^ 50 + 10 * s.length / 2 ^ 50) := by ring
    rw [e]
    refine mul_le_mul_of_nonneg_left ?_ (by linarith)
    have i1 : (136 : ℝ) / 2 ^ 40 + 13 / 2 ^ 50 ≤ 1 / 2 ^ 32 := by norm_num
    have i2 : 10 * (s.length : ℝ) / 2 ^ 50 ≤ s.length / 2 ^ 46 := by
      rw [div_le_div_iff₀ (by positivity) (by positivity)]
      generalize (s.length : ℝ) = l at *
      norm_num
      linarith
    exact add_le_add i1 i2

end Visqol
